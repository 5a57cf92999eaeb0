import Verif.Base.Dbl
import Verif.Base.Res

/-!
# The CSV readers (src/csv_tools)

Six file formats are read by six families of functions of the same shape:
`*_Extract`, `*_Check_Column_Count`, `*_Malloc`, `*_Read_Data`.  They are modelled
by one family of definitions, the differences are tables (`readOrder`,
`allocOrder`, `wantedColumns`) transcribed from the respective file.

A file is its list of characters, the position is always the beginning when one
of the functions is called (the libtmpl counting functions rewind the file, and
`Read_Data` does so itself).
-/
namespace Verif

/-- The file formats: include/types/rss_ringoccs_calcsv.h, …_dlpcsv.h, …_geocsv.h,
include/rss_ringoccs_csv_tools.h (TauCSV, MergedCSVData, UranusDLPCSV). -/
inductive Kind
  | cal | dlp | geo | tau | merged | uranus
  deriving DecidableEq, Repr

/-- The array members of all CSV objects (same member name = same constructor;
`phi_ora_deg_vals` is `phi`). -/
inductive Col
  | rho | rhoPole | rhoTiming | phiRl | phi | pNorm | rawTau | phase | rawTauThr
  | tOet | tRet | tSet | B | D | rhoDot | phiRlDot | F | rImp | rx | ry | rz
  | vx | vy | vz | obsLat | fSkyPred | fSkyResid | pFree | fSky
  | power | tau | tauThr | tauPhase | tauPower
  deriving DecidableEq, Repr

/-- Where an error was raised. -/
inductive CsvErr
  | noFile | nullFp | columns | noLines | memory | noRows | noLine
  deriving DecidableEq, Repr

/-- A CSV object: the members of the structs in include/types/*.h and
include/rss_ringoccs_csv_tools.h; `radians` is `in_radians` (Uranus only), `dep` is
`use_deprecated` (not present in the Cal, Merged and Uranus objects).  `err` stands
for `error_occurred` and `error_message`.  `history` is not modelled here. -/
structure Csv where
  arr : Col → Option (List Dbl)
  n : Nat
  err : Option CsvErr
  dep : Bool
  radians : Bool

/-- The outside world: libtmpl's line and column counters, the C library's `atof`,
multiplication, the outcome of `malloc` for each member, and what fresh memory
contains. -/
structure CsvLib where
  lineCount : List Char → Nat
  columnCount : List Char → Nat
  atof : List Char → Dbl
  mul : Dbl → Dbl → Dbl
  mem : Col → Bool
  junk : Col → Nat → Dbl

/-- The assignments of `*_Read_Data` in order:
rss_ringoccs_cal_csv_read_data.c 110-117, rss_ringoccs_dlp_csv_read_data.c 115-155,
rss_ringoccs_geo_csv_read_data.c 98-156, rss_ringoccs_tau_csv_read_data.c 115-155,
rss_ringoccs_merged_csv_data_read_data.c 155-177,
rss_ringoccs_uranus_dlp_csv_read_data.c 126-146. -/
def readOrder : Kind → Bool → List Col
  | .cal, _ => [.tOet, .fSkyPred, .fSkyResid, .pFree]
  | .dlp, dep => [.rho, .rhoPole, .rhoTiming, .phiRl, .phi] ++ (if dep then [] else [.pNorm]) ++
      [.rawTau, .phase, .rawTauThr, .tOet, .tRet, .tSet, .B]
  | .geo, dep => [.tOet, .tRet, .tSet, .rho, .phiRl, .phi, .B, .D, .rhoDot, .phiRlDot, .F, .rImp,
      .rx, .ry, .rz, .vx, .vy, .vz] ++ (if dep then [] else [.obsLat])
  | .tau, dep => [.rho, .rhoPole, .rhoTiming, .phiRl, .phi] ++ (if dep then [] else [.power]) ++
      [.tau, .phase, .tauThr, .tOet, .tRet, .tSet, .B]
  | .merged, _ => [.B, .D, .fSky, .pNorm, .phase, .phi, .phiRl, .rawTauThr, .rawTau, .rhoPole,
      .rhoTiming, .rhoDot, .rho, .rx, .ry, .rz, .tOet, .tRet, .tSet]
  | .uranus, _ => [.rho, .rhoPole, .rhoTiming, .phiRl, .phi, .pNorm, .rawTau, .phase, .rawTauThr,
      .tOet, .tRet, .tSet, .B, .rhoDot, .F, .D, .fSky]

/-- The members allocated by `*_Malloc`, in order:
rss_ringoccs_cal_csv_malloc.c 103-106, rss_ringoccs_dlp_csv_malloc.c 103-119,
rss_ringoccs_geo_csv_malloc.c 102-124, rss_ringoccs_tau_csv_malloc.c 101-119,
rss_ringoccs_merged_csv_data_malloc.c 106-127, rss_ringoccs_uranus_dlp_csv_malloc.c 106-122. -/
def allocOrder : Kind → Bool → List Col
  | .cal, _ => [.tOet, .fSkyPred, .fSkyResid, .pFree]
  | .dlp, dep => [.tOet, .tRet, .tSet, .rho, .rhoPole, .rhoTiming, .phiRl, .phi, .B, .rawTau,
      .phase, .rawTauThr] ++ (if dep then [] else [.pNorm])
  | .geo, dep => [.tOet, .tRet, .tSet, .rho, .phiRl, .phi, .B, .D, .rhoDot, .phiRlDot, .F, .rImp,
      .rx, .ry, .rz, .vx, .vy, .vz] ++ (if dep then [] else [.obsLat])
  | .tau, dep => [.rho, .rhoPole, .rhoTiming, .phiRl, .phi, .tau, .phase, .tauThr, .tOet, .tRet,
      .tSet, .B] ++ (if dep then [] else [.power])
  | .merged, _ => [.B, .D, .fSky, .pNorm, .rawTau, .phase, .phi, .phiRl, .rawTauThr, .rhoPole,
      .rhoTiming, .rhoDot, .rho, .rx, .ry, .rz, .tOet, .tRet, .tSet, .tauPhase, .tauPower, .tau]
  | .uranus, _ => [.rho, .rhoPole, .rhoTiming, .phiRl, .phi, .pNorm, .rawTau, .phase, .rawTauThr,
      .tOet, .tRet, .tSet, .B, .rhoDot, .F, .D, .fSky]

/-- `*_Init`: rss_ringoccs_cal_csv_init.c, …_dlp_csv_init.c 36-64, …_geo_csv_init.c,
…_tau_csv_init.c, …_merged_csv_data_init.c 36-73, …_uranus_dlp_csv_init.c 36-68. -/
def csvInit : Csv := { arr := fun _ => none, n := 0, err := none, dep := false, radians := true }

/-- The tests of `*_Check_Column_Count`: rss_ringoccs_cal_csv_check_column_count.c 68,
rss_ringoccs_dlp_csv_check_column_count.c 64 and 74,
rss_ringoccs_geo_csv_check_column_count.c 64 and 74,
rss_ringoccs_tau_csv_check_column_count.c 65 and 75,
rss_ringoccs_merged_csv_data_check_column_count.c 68,
rss_ringoccs_uranus_dlp_csv_check_column_count.c 70. -/
def columnsRejected (k : Kind) (dep : Bool) (count : Nat) : Bool :=
  match k with
  | .cal => count != 4
  | .dlp => (count != 12 && dep) || (count != 13 && !dep)
  | .geo => (count != 18 && dep) || (count != 19 && !dep)
  | .tau => (count != 12 && dep) || (count != 13 && !dep)
  | .merged => count != 19
  | .uranus => count != 17

/-- `error_occurred = True; error_message = …`. -/
def Csv.fail (o : Csv) (e : CsvErr) : Csv := { o with err := some e }

/-- `*_Check_Column_Count` for an object that is not NULL (a NULL object is returned
at once): e.g. rss_ringoccs_dlp_csv_check_column_count.c 34-82. -/
def checkColumnCount (V : CsvLib) (k : Kind) (fp : Option (List Char)) (o : Csv) : Csv :=
  if o.err.isSome then o
  else match fp with
    | none => o.fail .nullFp
    | some f => if columnsRejected k o.dep (V.columnCount f) then o.fail .columns else o

/-- The expansions of the `MALLOC_*_VAR` macro for a list of members: on failure all
members are released (`*_Destroy_Members`) and the function returns. -/
def allocCols (V : CsvLib) : List Col → Csv → Csv
  | [], o => o
  | c :: cs, o =>
    if V.mem c then
      allocCols V cs { o with arr := fun c' => if c' = c then some ((List.range o.n).map (V.junk c)) else o.arr c' }
    else { o with arr := fun _ => none, err := some .memory }

/-- `*_Malloc` for an object that is not NULL: e.g. rss_ringoccs_dlp_csv_malloc.c 62-120. -/
def csvMalloc (V : CsvLib) (k : Kind) (fp : Option (List Char)) (o : Csv) : Csv :=
  if o.err.isSome then o
  else match fp with
    | none => o.fail .nullFp
    | some f =>
      let o := { o with n := V.lineCount f }
      if o.n = 0 then o.fail .noLines else allocCols V (allocOrder k o.dep) o

/-- `fgets(buffer, room + 1, fp)` (C11 7.21.7.2) on a non-empty rest of the file: the
characters stored before the terminating NUL, and the rest. -/
def fgets : Nat → List Char → List Char × List Char
  | _, [] => ([], [])
  | 0, s => ([], s)
  | room + 1, ch :: s =>
    if ch = '\n' then ([ch], s)
    else let r := fgets room s; (ch :: r.1, r.2)

/-- The results of successive calls `fgets(buffer, sizeof(buffer), fp)` with the buffer
of 1024 bytes until it returns NULL, at most `fuel` many (each call takes at least
one character, so the length of the file suffices). -/
def fgetsAll : Nat → List Char → List (List Char)
  | 0, _ => []
  | _, [] => []
  | fuel + 1, s => let r := fgets 1023 s; r.1 :: fgetsAll fuel r.2

/-- The lines that the `while` loop of `*_Read_Data` sees. -/
def lines (f : List Char) : List (List Char) := fgetsAll f.length f

/-- The C string in a buffer: everything before the first NUL. -/
def cstr (s : List Char) : List Char := s.takeWhile (· ≠ '\x00')

/-- `strtok(s, ",")` (C11 7.24.5.8): the next token and the rest, `none` for NULL. -/
def strtok (s : List Char) : Option (List Char × List Char) :=
  let s' := s.dropWhile (· = ',')
  if s' = [] then none
  else some (s'.takeWhile (· ≠ ','), (s'.dropWhile (· ≠ ',')).drop 1)

/-- `o->c[n] = v`. -/
def Csv.set (o : Csv) (c : Col) (n : Nat) (v : Dbl) : Res Csv :=
  match o.arr c with
  | none => .ub .nullDeref
  | some l => do
    let l ← wr l n v
    .ok { o with arr := fun c' => if c' = c then some l else o.arr c' }

/-- The assignments for one line (see `readOrder` for the lines in the source):
`record = strtok(…); o->c[n] = atof(record);`. `atof(NULL)` is undefined. -/
def readFields (V : CsvLib) : List Col → List Char → Nat → Csv → Res Csv
  | [], _, _, o => .ok o
  | c :: cs, s, n, o =>
    match strtok s with
    | none => .ub .nullDeref
    | some (tok, rest) => do
      let o ← o.set c n (V.atof tok)
      readFields V cs rest n o

/-- The `while (line != NULL)` loop, e.g. rss_ringoccs_dlp_csv_read_data.c 94-159. -/
def readRows (V : CsvLib) (cols : List Col) : List (List Char) → Nat → Csv → Res Csv
  | [], _, o => .ok o
  | l :: ls, n, o => do
    let o ← readFields V cols (cstr l) n o
    readRows V cols ls (n + 1) o

/-- The four columns of rss_ringoccs_uranus_dlp_csv_read_data.c 161-164. -/
def angleCols : List Col := [.phiRl, .phi, .phase, .B]

/-- `RSS_RINGOCCS_DEG2RAD` (sic), rss_ringoccs_uranus_dlp_csv_read_data.c 48. -/
def degPerRad : Dbl := .fin (57295779513082320876798154814105170 / 10 ^ 33)

/-- One statement of rss_ringoccs_uranus_dlp_csv_read_data.c 161-164. -/
def scaleAt (V : CsvLib) (o : Csv) (c : Col) (n : Nat) : Res Csv := do
  let v ← rdP (o.arr c) n
  o.set c n (V.mul v degPerRad)

/-- rss_ringoccs_uranus_dlp_csv_read_data.c 159-165 for rows `n .. n + cnt - 1`. -/
def scaleRows (V : CsvLib) : Nat → Nat → Csv → Res Csv
  | _, 0, o => .ok o
  | n, cnt + 1, o => do
    let o ← scaleAt V o .phiRl n
    let o ← scaleAt V o .phi n
    let o ← scaleAt V o .phase n
    let o ← scaleAt V o .B n
    scaleRows V (n + 1) cnt o

/-- rss_ringoccs_uranus_dlp_csv_read_data.c 157-169. -/
def toDegrees (V : CsvLib) (o : Csv) : Res Csv :=
  if o.radians then do
    let o ← scaleRows V 0 o.n o
    .ok { o with radians := false }
  else .ok o

/-- rss_ringoccs_merged_csv_data_read_data.c 104-129: the first line, the check for a
header; the lines to be read and the object. (`--n_elements` cannot wrap: it is
not zero after line 91.) -/
def mergedHeader (ls : List (List Char)) (o : Csv) : List (List Char) × Csv :=
  match ls with
  | [] => ([], o.fail .noLine)
  | l :: ls' =>
    if l.head? = some 'B' ∨ l.head? = some 'b' then (ls', { o with n := o.n - 1 }) else (ls, o)

/-- `*_Read_Data` for an object that is not NULL: rss_ringoccs_cal_csv_read_data.c 48-126,
rss_ringoccs_dlp_csv_read_data.c 42-163, rss_ringoccs_geo_csv_read_data.c 42-163,
rss_ringoccs_tau_csv_read_data.c 42-163, rss_ringoccs_merged_csv_data_read_data.c 49-185,
rss_ringoccs_uranus_dlp_csv_read_data.c 51-170. -/
def readData (V : CsvLib) (k : Kind) (fp : Option (List Char)) (o : Csv) : Res Csv :=
  if o.err.isSome then .ok o
  else match fp with
    | none => .ok (o.fail .nullFp)
    | some f =>
      if o.n = 0 then .ok (o.fail .noRows)
      else match k with
        | .merged =>
          let r := mergedHeader (lines f) o
          if r.2.err.isSome then .ok r.2 else readRows V (readOrder k o.dep) r.1 0 r.2
        | .uranus => do
          let o ← readRows V (readOrder k o.dep) (lines f) 0 o
          toDegrees V o
        | _ => readRows V (readOrder k o.dep) (lines f) 0 o

/-- `*_Extract` after the allocation of the object itself succeeded:
rss_ringoccs_cal_csv_extract.c 59-89, rss_ringoccs_dlp_csv_extract.c 59-92,
rss_ringoccs_geo_csv_extract.c 59-92, rss_ringoccs_tau_csv_extract.c 58-91,
rss_ringoccs_merged_csv_data_extract.c 60-91, rss_ringoccs_uranus_dlp_csv_extract.c 60-93.
`fp` is what `fopen` returns (`none`: no such file). -/
def csvExtract (V : CsvLib) (k : Kind) (dep radians : Bool) (fp : Option (List Char)) : Res Csv :=
  let o := { csvInit with dep := dep, radians := radians }
  match fp with
  | none => .ok (o.fail .noFile)
  | some f => readData V k (some f) (csvMalloc V k (some f) (checkColumnCount V k (some f) o))

end Verif
