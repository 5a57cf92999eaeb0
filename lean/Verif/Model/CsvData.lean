import Verif.Model.Csv

/-!
# Combining the CSV files of one occultation (src/csv_tools: CSVData, UranusCSVData)

`rssringoccs_CSVData_Extract` (Cassini) and `rssringoccs_UranusCSVData_Extract`
(Voyager at Uranus) read the geometry, (calibration,) diffraction-limited and
optionally optical depth files and put all columns on the radii of the
diffraction-limited profile.

Values only: the arrays that the object shares with its member `dlp` are copied here
(nothing reads them through `dlp` after they have been written through the object),
the flag `stolen` records the sharing, see `Data.destroyMembers`. Who owns which
allocation is the subject of `Verif.Model.CsvHeap`.
-/
namespace Verif

/-- The two families of functions. -/
inductive Mission
  | cassini | uranus
  deriving DecidableEq, Repr

/-- Where an error was raised: the three errors of each `*_Extract_Geo/Cal/DLP/Tau`,
and those of Steal_DLP_Data, Malloc, Check_Chord_Occ, Reverse_Geo_Variables,
Interpolate_Geo, Interpolate_Cal, Interpolate_Tau. -/
inductive DataErr
  | noObject (k : Kind) | badFile (k : Kind) | empty (k : Kind)
  | stealNull | stealBad | powerMemory | noElements | memory
  | chordNull | chordBad | chord | stationary | reverseNull | reverseBad
  | geoNull | geoBad | geoShort | calNull | calBad | tauNull | tauBad
  deriving DecidableEq, Repr

/-- rssringoccs_CSVData (include/types/rss_ringoccs_csvdata.h) and
rssringoccs_UranusCSVData: `file` are the members geo, cal, dlp, tau (`none` = NULL;
Uranus has no cal), `arr` the array members, `inc`/`dec` are geo_increment and
geo_decrement, `dep` is use_deprecated (Cassini), `radians` is dlp_in_radians (Uranus). -/
structure CsvData where
  file : Kind → Option Csv
  arr : Col → Option (List Dbl)
  n : Nat
  inc : Nat
  dec : Nat
  err : Option DataErr
  dep : Bool
  radians : Bool
  stolen : Bool

/-- The operations of `-tau / sind(|B|)`, `exp` of libtmpl, over any number type. -/
structure PowOps (R : Type) where
  abs : R → R
  sind : R → R
  exp : R → R
  neg : R → R
  div : R → R → R

/-- rss_ringoccs_csv_data_steal_dlp_data.c 118-123 and
rss_ringoccs_csv_data_interpolate_tau.c 83-86. -/
def powerOf {R : Type} (P : PowOps R) (tau B : R) : R :=
  P.exp (P.div (P.neg tau) (P.sind (P.abs B)))

/-- The outside world: the libraries of the single files, the outcomes of `malloc`
(for the object, the objects of the files, the array members), fresh memory,
arithmetic, and `tmpl_Double_Sorted_Linear_Interp1d` (`interp xs ys new`: the values
at the points `new` of the interpolation through `(xs, ys)`; libtmpl is not part of
the sources). -/
structure DataLib where
  csv : Kind → CsvLib
  self : Bool
  obj : Kind → Bool
  mem : Col → Bool
  junk : Col → Nat → Dbl
  sub : Dbl → Dbl → Dbl
  div : Dbl → Dbl → Dbl
  pow : PowOps Dbl
  interp : List Dbl → List Dbl → List Dbl → List Dbl

namespace Data

/-- rss_ringoccs_csv_data_init.c 36-84, rss_ringoccs_uranus_csv_data_init.c. -/
def init : CsvData :=
  { file := fun _ => none, arr := fun _ => none, n := 0, inc := 0, dec := 0, err := none,
    dep := false, radians := true, stolen := false }

/-- `error_occurred = True; error_message = …`. -/
def fail (o : CsvData) (e : DataErr) : CsvData := { o with err := some e }

/-- rss_ringoccs_csv_data_destroy_members.c 42-77,
rss_ringoccs_uranus_csv_data_destroy_members.c 42-76: every array and every file
object is released. The arrays taken over from `dlp` are released
twice if `dlp` is still there (`free` of lines 49-70, then rssringoccs_DLPCSV_Destroy). -/
def destroyMembers (o : CsvData) : Res CsvData :=
  if o.stolen && (o.file .dlp).isSome then .ub .doubleFree
  else .ok { o with file := fun _ => none, arr := fun _ => none, stolen := false }

/-- The format of the member `dlp`: rss_ringoccs_csv_data_extract_dlp.c 27,
rss_ringoccs_uranus_csv_data_extract_dlp.c 28. -/
def format : Mission → Kind → Kind
  | .uranus, .dlp => .uranus
  | _, k => k

/-- rss_ringoccs_csv_data_extract_geo.c 13-112, …_extract_cal.c 13-112,
…_extract_dlp.c 13-116, …_extract_tau.c 13-112,
rss_ringoccs_uranus_csv_data_extract_geo.c 13-113, …_extract_dlp.c 13-117,
…_extract_tau.c 13-113. `k` is the member, `fp` what `fopen` of the file returns.
(The Uranus functions pass False for the deprecated format; so does this model, since
`dep` is False there.) -/
def extractFile (L : DataLib) (M : Mission) (k : Kind) (fp : Option (List Char)) (o : CsvData) :
    Res CsvData :=
  if o.err.isSome then .ok o
  else if !L.obj k then .ok (fail { o with file := fun k' => if k' = k then none else o.file k' } (.noObject k))
  else do
    let x ← csvExtract (L.csv k) (format M k) o.dep o.radians fp
    let o := { o with file := fun k' => if k' = k then some x else o.file k' }
    if x.err.isSome then destroyMembers (fail o (.badFile k))
    else if x.n = 0 then destroyMembers (fail o (.empty k))
    else if k = .dlp then .ok { o with n := x.n }
    else .ok o

/-- The pointers taken over: rss_ringoccs_csv_data_steal_dlp_data.c 76-89,
rss_ringoccs_uranus_csv_data_steal_dlp_data.c 73-95. -/
def stealCols : Mission → List Col
  | .cassini => [.rho, .rawTau, .tRet, .tSet, .tOet, .rhoPole, .rhoTiming, .rawTauThr, .phase,
      .phi, .B, .phiRl]
  | .uranus => [.rho, .rawTau, .tRet, .tSet, .tOet, .rhoPole, .rhoTiming, .rawTauThr, .phase,
      .phi, .B, .phiRl, .pNorm, .rhoDot, .D, .fSky]

/-- A loop `for (n = 0; n < cnt; ++n)` that computes entry `n` of an array of
`cnt` entries: the list of the entries `lo, lo+1, …`. -/
def fill (f : Nat → Res Dbl) : Nat → Nat → Res (List Dbl)
  | _, 0 => .ok []
  | lo, cnt + 1 => do
    let x ← f lo
    let xs ← fill f (lo + 1) cnt
    .ok (x :: xs)

/-- `p->arr = v`. -/
def put (o : CsvData) (c : Col) (v : Option (List Dbl)) : CsvData :=
  { o with arr := fun c' => if c' = c then v else o.arr c' }

/-- rss_ringoccs_csv_data_steal_dlp_data.c 16-126,
rss_ringoccs_uranus_csv_data_steal_dlp_data.c 16-96. -/
def steal (L : DataLib) (M : Mission) (o : CsvData) : Res CsvData :=
  if o.err.isSome then .ok o
  else match o.file .dlp with
    | none => .ok (fail o .stealNull)
    | some d =>
      if d.err.isSome then .ok (fail o .stealBad)
      else
        let o := { o with
          stolen := true
          arr := fun c => if c ∈ stealCols M then d.arr c else o.arr c }
        match M with
        | .uranus => .ok o
        | .cassini =>
          if !o.dep then .ok (put o .pNorm (d.arr .pNorm))
          else if !L.mem .pNorm then .ok (fail (put o .pNorm none) .powerMemory)
          else do
            let p ← fill (fun i => do
              let B ← rdP (d.arr .B) i
              let t ← rdP (o.arr .rawTau) i
              .ok (powerOf L.pow t B)) 0 o.n
            .ok (put o .pNorm (some p))

/-- The members allocated by rss_ringoccs_csv_data_malloc.c 49-62 and
rss_ringoccs_uranus_csv_data_malloc.c 49-59. -/
def mallocCols (M : Mission) (tau : Bool) : List Col :=
  (match M with
    | .cassini => [.D, .fSky, .rhoDot, .rx, .ry, .rz]
    | .uranus => [.rx, .ry, .rz]) ++ (if tau then [.tauPhase, .tauPower, .tau] else [])

/-- The expansions of MALLOC_CSV_VAR (lines 12-25 of the two files). -/
def allocCols (L : DataLib) : List Col → CsvData → Res CsvData
  | [], o => .ok o
  | c :: cs, o =>
    if L.mem c then allocCols L cs (put o c (some ((List.range o.n).map (L.junk c))))
    else destroyMembers (fail (put o c none) .memory)

/-- rss_ringoccs_csv_data_malloc.c 27-63, rss_ringoccs_uranus_csv_data_malloc.c 27-60. -/
def malloc (L : DataLib) (M : Mission) (o : CsvData) : Res CsvData :=
  if o.err.isSome then .ok o
  else if o.n = 0 then .ok (fail o .noElements)
  else allocCols L (mallocCols M (o.file .tau).isSome) o

/-- rss_ringoccs_csv_data_check_chord_occ.c 72-85 (the Uranus file is the same up to the
type): the loop over `n < n_elements - 1`; the state is (min_dr_dt, max_dr_dt). For
`n_elements = 0` the bound wraps around and the loop leaves every array. -/
def slopeLoop (L : DataLib) (rho t : Option (List Dbl)) (n : Nat) : Res (Dbl × Dbl) :=
  if n = 0 then .ub .oobRead
  else forRange 0 (n - 1) (fun i s => do
    let r1 ← rdP rho (i + 1)
    let r0 ← rdP rho i
    let t1 ← rdP t (i + 1)
    let t0 ← rdP t i
    let d := L.div (L.sub r1 r0) (L.sub t1 t0)
    .ok (if d.lt s.1 then d else s.1, if s.2.lt d then d else s.2))
    (.fin (10^36), .fin (-10^36))

/-- `tmpl_Double_Array_Reverse(p, n)`. -/
def reverseArr (p : Option (List Dbl)) (n : Nat) : Res (Option (List Dbl)) :=
  match p with
  | none => .ub .nullDeref
  | some l => if n ≤ l.length then .ok (some ((l.take n).reverse ++ l.drop n)) else .ub .oobRead

/-- rss_ringoccs_csv_data_reverse_geo_variables.c 64-69. -/
def reverseCols : List Col := [.rho, .rhoDot, .D, .rx, .ry, .rz]

/-- The six calls, one after the other. -/
def reverseAll : List Col → Csv → Res Csv
  | [], g => .ok g
  | c :: cs, g => do
    let l ← reverseArr (g.arr c) g.n
    reverseAll cs { g with arr := fun c' => if c' = c then l else g.arr c' }

/-- rss_ringoccs_csv_data_reverse_geo_variables.c 8-70,
rss_ringoccs_uranus_csv_data_reverse_geo_variables.c. -/
def reverseGeo (o : CsvData) : Res CsvData :=
  if o.err.isSome then .ok o
  else match o.file .geo with
    | none => .ok (fail o .reverseNull)
    | some g =>
      if g.err.isSome then .ok (fail o .reverseBad)
      else do
        let g ← reverseAll reverseCols g
        .ok { o with file := fun k => if k = .geo then some g else o.file k }

/-- rss_ringoccs_csv_data_check_chord_occ.c 120-126 and 131-137: the loop over the
rows to be left out; `bad` is the test of the `while`. (`fuel` counts the
passes; `n + 2` are more than the loop can make.) -/
def skip (bad : Dbl → Bool) (v : Option (List Dbl)) (n : Nat) : Nat → Nat → Res Nat
  | 0, _ => .ub .hang
  | fuel + 1, inc => do
    let x ← rdP v inc
    if bad x then
      if inc ≥ n then .ok inc else skip bad v n fuel (inc + 1)
    else .ok inc

/-- One of the two `while` loops of the function below, on the member geo. -/
def skipGeo (bad : Dbl → Bool) (o : CsvData) : Res CsvData :=
  match o.file .geo with
  | none => .ub .nullDeref
  | some g => do
    let inc ← skip bad (g.arr .rhoDot) g.n (g.n + 2) o.inc
    .ok { o with inc := inc }

/-- rss_ringoccs_csv_data_check_chord_occ.c 6-139,
rss_ringoccs_uranus_csv_data_check_chord_occ.c. -/
def checkChord (L : DataLib) (o : CsvData) : Res CsvData :=
  if o.err.isSome then .ok o
  else match o.file .geo with
    | none => .ok (fail o .chordNull)
    | some g =>
      if g.err.isSome then .ok (fail o .chordBad)
      else do
        let s ← slopeLoop L (o.arr .rho) (o.arr .tSet) o.n
        if s.1.lt (.fin 0) && s.2.gt (.fin 0) then .ok (fail o .chord)
        else if s.1.eq (.fin 0) || s.2.eq (.fin 0) then .ok (fail o .stationary)
        else if s.2.lt (.fin 0) then do
          let o ← reverseGeo o
          skipGeo (fun x => x.ge (.fin 0)) o
        else if s.1.gt (.fin 0) then skipGeo (fun x => x.le (.fin 0)) o
        else .ok o

/-- A call `tmpl_Double_Sorted_Linear_Interp1d(x + off, y + off, len, new, out, n)`: the
contents of `out` afterwards. The callee is assumed to read exactly the entries it
is given and to write the first `n` entries of `out`. -/
def interpCall (L : DataLib) (x y : Option (List Dbl)) (off len : Nat) (new out : Option (List Dbl))
    (n : Nat) : Res (Option (List Dbl)) := do
  let xs ← rdSlice x off len
  let ys ← rdSlice y off len
  let ns ← rdN new n
  match out with
  | none => .ub .nullDeref
  | some l => if n ≤ l.length then .ok (some (L.interp xs ys ns ++ l.drop n)) else .ub .oobWrite

/-- rss_ringoccs_csv_data_interpolate_geo.c 86-109. -/
def geoCols : List Col := [.D, .rhoDot, .rx, .ry, .rz]

/-- The five calls, one after the other. -/
def interpAll (L : DataLib) (g : Csv) (off len : Nat) : List Col → CsvData → Res CsvData
  | [], o => .ok o
  | c :: cs, o => do
    let l ← interpCall L (g.arr .rho) (g.arr c) off len (o.arr .rho) (o.arr c) o.n
    interpAll L g off len cs (put o c l)

/-- rss_ringoccs_csv_data_interpolate_geo.c 6-110,
rss_ringoccs_uranus_csv_data_interpolate_geo.c. -/
def interpGeo (L : DataLib) (o : CsvData) : Res CsvData :=
  if o.err.isSome then .ok o
  else match o.file .geo with
    | none => .ok (fail o .geoNull)
    | some g =>
      if g.err.isSome then .ok (fail o .geoBad)
      else if g.n < o.inc + o.dec then .ok (fail o .geoShort)
      else interpAll L g o.inc (g.n - (o.inc + o.dec)) geoCols o

/-- rss_ringoccs_csv_data_interpolate_cal.c 7-77. (The difference is stored in the
array f_sky_pred_vals of the member cal, which nothing reads afterwards.) -/
def interpCal (L : DataLib) (o : CsvData) : Res CsvData :=
  if o.err.isSome then .ok o
  else match o.file .cal with
    | none => .ok (fail o .calNull)
    | some k =>
      if k.err.isSome then .ok (fail o .calBad)
      else do
        let f ← fill (fun i => do
          let p ← rdP (k.arr .fSkyPred) i
          let r ← rdP (k.arr .fSkyResid) i
          .ok (L.sub p r)) 0 k.n
        let l ← interpCall L (k.arr .tOet) (some f) 0 k.n (o.arr .tOet) (o.arr .fSky) o.n
        .ok (put o .fSky l)

/-- rss_ringoccs_csv_data_interpolate_tau.c 8-97; the Uranus version has only the
branch for the new format (lines 64-76 there; `dep` is False). -/
def interpTau (L : DataLib) (o : CsvData) : Res CsvData :=
  if o.err.isSome then .ok o
  else match o.file .tau with
    | none => .ok (fail o .tauNull)
    | some t =>
      if t.err.isSome then .ok (fail o .tauBad)
      else do
        let l ← interpCall L (t.arr .rho) (t.arr .phase) 0 t.n (o.arr .rho) (o.arr .tauPhase) o.n
        let o := put o .tauPhase l
        let l ← interpCall L (t.arr .rho) (t.arr .tau) 0 t.n (o.arr .rho) (o.arr .tau) o.n
        let o := put o .tau l
        if o.dep then do
          let l ← interpCall L (t.arr .rho) (t.arr .tau) 0 t.n (o.arr .rho) (o.arr .tauPower) o.n
          let p ← fill (fun i => do
            let B ← rdP (o.arr .B) i
            let x ← rdP l i
            .ok (powerOf L.pow x B)) 0 o.n
          .ok (put o .tauPower (some p))
        else do
          let l ← interpCall L (t.arr .rho) (t.arr .power) 0 t.n (o.arr .rho) (o.arr .tauPower) o.n
          .ok (put o .tauPower l)

/-- The files given to the function; `tau = none` means the argument `tau` is NULL,
`some none` that the file does not exist. -/
structure Inputs where
  geo : Option (List Char)
  cal : Option (List Char)
  dlp : Option (List Char)
  tau : Option (Option (List Char))

/-- The optional steps of lines 65-66 and 75-76 (Uranus: 63-64 and 72-73). -/
def ifTau (I : Inputs) (f : Option (List Char) → CsvData → Res CsvData) (o : CsvData) : Res CsvData :=
  match I.tau with
  | none => .ok o
  | some fp => f fp o

/-- rss_ringoccs_csv_data_extract.c 60-66, rss_ringoccs_uranus_csv_data_extract.c 59-64. -/
def extractAll (L : DataLib) (M : Mission) (I : Inputs) (o : CsvData) : Res CsvData := do
  let o ← extractFile L M .geo I.geo o
  let o ← (match M with
    | .cassini => extractFile L M .cal I.cal o
    | .uranus => .ok o)
  let o ← extractFile L M .dlp I.dlp o
  ifTau I (extractFile L M .tau) o

/-- rss_ringoccs_csv_data_extract.c 68-76, rss_ringoccs_uranus_csv_data_extract.c 66-73. -/
def combine (L : DataLib) (M : Mission) (I : Inputs) (o : CsvData) : Res CsvData := do
  let o ← steal L M o
  let o ← malloc L M o
  let o ← checkChord L o
  let o ← interpGeo L o
  let o ← (match M with
    | .cassini => interpCal L o
    | .uranus => .ok o)
  ifTau I (fun _ => interpTau L) o

/-- rss_ringoccs_csv_data_extract.c 80-84, rss_ringoccs_uranus_csv_data_extract.c 77-84 (line
80 there reads `csv->dlp->F_km_vals`). -/
def finish (M : Mission) (o : CsvData) : Res CsvData :=
  match M, o.file .dlp with
  | .uranus, none => .ub .nullDeref
  | _, _ => .ok { o with file := fun _ => none, stolen := false }

/-- rss_ringoccs_csv_data_extract.c 38-86 (`M = cassini`),
rss_ringoccs_uranus_csv_data_extract.c 38-87 (`M = uranus`, where `dep` is False).
`flag` is use_deprecated or dlp_in_radians. -/
def extract (L : DataLib) (M : Mission) (I : Inputs) (flag : Bool) : Res (Option CsvData) :=
  if !L.self then .ok none
  else do
    let o ← extractAll L M I (match M with
      | .cassini => { init with dep := flag }
      | .uranus => { init with radians := flag })
    let o ← combine L M I o
    let o ← finish M o
    .ok (some o)

end Data
end Verif
