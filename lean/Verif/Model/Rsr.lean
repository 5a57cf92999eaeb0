import Verif.Base.Dbl
import Mathlib.Data.Rat.Floor

/-!
# The reader of raw radio science receiver (RSR) files

Python floats that hold times are rational numbers here, every floating point operation is followed by an arbitrary
function `rnd` (see `Ieee` for what is known of it); overflow to infinity is not modelled.
-/
namespace Verif.Rsr

/-- Python exceptions. -/
inductive Exn
  | struct | zeroDivision | value | index | unboundLocal | systemExit | name | type | key
  deriving DecidableEq, Repr

/-- A Python computation. -/
abbrev Py (α : Type) := Except Exn α

/-- A byte of the file. -/
abbrev Byte := Fin 256

/-- Big-endian number. -/
def be (l : List Byte) : Nat := l.foldl (fun a b => 256 * a + b.val) 0

/-- The format characters of Python's `struct` that the reader uses, with the standard sizes (prefix `>`). -/
inductive Fmt
  | c | B | b | H | h | I | Q | d
  deriving DecidableEq, Repr

/-- Number of bytes. -/
def Fmt.size : Fmt → Nat
  | .c => 1 | .B => 1 | .b => 1 | .H => 2 | .h => 2 | .I => 4 | .Q => 8 | .d => 8

/-- What `struct` returns for a field. -/
inductive Val
  | bytes (l : List Byte)
  | int (z : Int)
  | dbl (x : Dbl)
  deriving DecidableEq

/-- Two's complement with `n` bytes. -/
def signed (n : Nat) (u : Nat) : Int := if 2 * u < 256 ^ n then u else (u : Int) - 256 ^ n

/-- IEEE 754 binary64. -/
def dblOfBits (u : Nat) : Dbl :=
  let s : ℚ := if u / 2 ^ 63 % 2 = 1 then -1 else 1
  let e : Nat := u / 2 ^ 52 % 2048
  let f : Nat := u % 2 ^ 52
  if e = 2047 then (if f ≠ 0 then .nan else if s = 1 then .pinf else .ninf)
  else if e = 0 then .fin (s * f / 2 ^ 1074)
  else .fin (s * (2 ^ 52 + f) * 2 ^ e / 2 ^ 1075)

/-- The value of a field. -/
def Fmt.read (f : Fmt) (l : List Byte) : Val :=
  match f with
  | .c => .bytes l
  | .B => .int (be l)
  | .b => .int (signed 1 (be l))
  | .H => .int (be l)
  | .h => .int (signed 2 (be l))
  | .I => .int (be l)
  | .Q => .int (be l)
  | .d => .dbl (dblOfBits (be l))

/-- `struct.calcsize`. -/
def calcsize (fs : List Fmt) : Nat := (fs.map Fmt.size).sum

/-- The values of the fields one after the other. -/
def unpackAll : List Fmt → List Byte → List Val
  | [], _ => []
  | f :: fs, l => f.read (l.take f.size) :: unpackAll fs (l.drop f.size)

/-- `struct.Struct(fs).unpack_from`: `struct.error` if there are too few bytes. -/
def unpackFrom (fs : List Fmt) (l : List Byte) : Py (List Val) :=
  if l.length < calcsize fs then .error .struct else .ok (unpackAll fs l)

/-- rss_ringoccs/rsr_reader/rsr_reader.py 139-147. -/
def sfduNames : List String :=
  ["sfdu_authority1", "sfdu_authority2", "sfdu_authority3", "sfdu_authority4", "sfdu_version", "sfdu_class",
   "sfdu_reserved1", "sfdu_reserved2", "sfdu_data_desription1", "sfdu_data_desription2", "sfdu_data_desription3",
   "sfdu_data_desription4", "sfdu_length"]

/-- rss_ringoccs/rsr_reader/rsr_reader.py 148. -/
def sfduFmt : List Fmt := [.c, .c, .c, .c] ++ [.c] ++ [.c] ++ [.c, .c] ++ [.c, .c, .c, .c] ++ [.Q]

/-- rss_ringoccs/rsr_reader/rsr_reader.py 151. -/
def haNames : List String := ["ha_type", "ha_length"]

/-- rss_ringoccs/rsr_reader/rsr_reader.py 152. -/
def haFmt : List Fmt := [.H, .H]

/-- rss_ringoccs/rsr_reader/rsr_reader.py 155-161. -/
def phNames : List String :=
  ["ph_type", "ph_length", "ph_data_major", "ph_data_minor", "ph_mission_ID", "ph_format_code"]

/-- rss_ringoccs/rsr_reader/rsr_reader.py 162. -/
def phFmt : List Fmt := [.H, .H, .B, .B, .B, .B]

/-- rss_ringoccs/rsr_reader/rsr_reader.py 165-205. -/
def shNames : List String :=
  ["sh_type", "sh_length", "sh_originator", "sh_last_modifier", "sh_rsr_software_id", "sh_record_sequence_number",
   "sh_spc_id", "sh_dss_id", "sh_rsr_id", "sh_schan_id", "sh_reserved", "sh_spacecraft", "sh_prdx_pass_number",
   "sh_ulband", "sh_dl_band", "sh_trk_mode", "sh_ul_dss_id", "sh_fgain_px_no", "sh_fgain_if_bandwidth",
   "sh_frov_flag", "sh_attenuation", "sh_adc_rms", "sh_adc_peak", "sh_year", "sh_doy", "sh_seconds",
   "sh_bits_per_sample", "sh_data_error", "sh_sample_rate", "sh_ddc_lo", "sh_rfif_lo", "sh_sfdu_year",
   "sh_sfdu_doy", "sh_sfdu_seconds", "sh_predicts_time_shift", "sh_predicts_freq_override", "sh_predicts_freq_rate",
   "sh_predicts_freq_offset", "sh_sub_channel_freq", "sh_rf_freq_point_1", "sh_rf_freq_point_2",
   "sh_rf_freq_point_3", "sh_schan_freq_point_1", "sh_schan_freq_point_2", "sh_schan_freq_point_3",
   "sh_schan_freq_poly_coef_1", "sh_schan_freq_poly_coef_2", "sh_schan_freq_poly_coef_3", "sh_schan_accum_phase",
   "sh_schan_phase_poly_coef_1", "sh_schan_phase_poly_coef_2", "sh_schan_phase_poly_coef_3",
   "sh_schan_phase_poly_coef_4", "sh_reserved2a", "sh_reserved2b"]

/-- rss_ringoccs/rsr_reader/rsr_reader.py 206. -/
def shFmt : List Fmt :=
  [.h, .h] ++ [.B, .B, .h] ++ [.h, .B, .B] ++
  [.B, .B, .c, .B, .H, .c, .c, .B, .B, .b, .B, .B, .B, .B, .B, .H, .H, .I, .B, .B, .H, .H, .H, .H, .H] ++
  List.replicate 22 .d

/-- rss_ringoccs/rsr_reader/rsr_reader.py 209-212. -/
def dataNames : List String := ["Data_type", "Data_length", "Data_QI"]

/-- rss_ringoccs/rsr_reader/rsr_reader.py 213. -/
def dataHdrFmt : List Fmt := [.H, .H]

/-- rss_ringoccs/rsr_reader/rsr_reader.py 215-216. -/
def fieldNames : List String := sfduNames ++ haNames ++ phNames ++ shNames ++ dataNames

/-- rss_ringoccs/rsr_reader/rsr_reader.py 317-319. -/
def hdrFmt : List Fmt := sfduFmt ++ haFmt ++ phFmt ++ shFmt ++ dataHdrFmt

/-- `dict(zip(names, values))[name]`: of several equal names the last one counts. -/
def field (vs : List Val) (name : String) : Option Val := ((fieldNames.zip vs).reverse.lookup name)

/-- The integer in a field (0 if the field is not an integer; the format decides that, see C68). -/
def intField (vs : List Val) (name : String) : Int :=
  match field vs name with
  | some (.int z) => z
  | _ => 0

/-- The float in a field. -/
def dblField (vs : List Val) (name : String) : Dbl :=
  match field vs name with
  | some (.dbl x) => x
  | _ => .nan

/-- `chr(x[0])` of a field with format `c`. -/
def chrField (vs : List Val) (name : String) : Nat :=
  match field vs name with
  | some (.bytes (b :: _)) => b.val
  | _ => 0

/-! ### Numbers -/

/-- What is known of the rounding of Python floats (IEEE 754 binary64 far from overflow and underflow): relative error at most
2⁻⁵³, integers up to 2⁵³ divided by a power of two are exact, and so is every float read from a file. -/
structure Ieee (rnd : ℚ → ℚ) : Prop where
  rel : ∀ x, 1 / 2 ^ 200 ≤ |x| → |x| ≤ 2 ^ 200 → |rnd x - x| ≤ |x| / 2 ^ 53
  exact : ∀ (n : ℤ) (k : ℕ), |n| ≤ 2 ^ 53 → k ≤ 200 → rnd (n / 2 ^ k) = n / 2 ^ k
  double : ∀ (u : ℕ) (q : ℚ), dblOfBits u = .fin q → rnd q = q

/-- `int(x)`: towards zero. -/
def pyInt (x : ℚ) : ℤ := if 0 ≤ x then ⌊x⌋ else ⌈x⌉

/-- `round(x)`: to the nearest integer, ties to even. -/
def pyRound (x : ℚ) : ℤ :=
  if x - ⌊x⌋ < 1 / 2 then ⌊x⌋
  else if 1 / 2 < x - ⌊x⌋ then ⌊x⌋ + 1
  else if ⌊x⌋ % 2 = 0 then ⌊x⌋ else ⌊x⌋ + 1

/-- `np.argmin`: the first index of the smallest element. -/
def argminFrom : Nat → Nat → ℚ → List ℚ → Nat
  | _, best, _, [] => best
  | i, best, m, x :: xs => if x < m then argminFrom (i + 1) i x xs else argminFrom (i + 1) best m xs

/-- `np.argmin`; an empty array is a `ValueError`. -/
def argmin : List ℚ → Py Nat
  | [] => .error .value
  | x :: xs => .ok (argminFrom 1 0 x xs)

/-- `min` of a sequence. -/
def pyMin : List ℚ → Py ℚ
  | [] => .error .value
  | x :: xs => .ok (xs.foldl min x)

/-- `max` of a sequence. -/
def pyMax : List ℚ → Py ℚ
  | [] => .error .value
  | x :: xs => .ok (xs.foldl max x)

/-- `start + dt * np.arange(n)`. -/
def arange (rnd : ℚ → ℚ) (start dt : ℚ) (n : Nat) : List ℚ :=
  (List.range n).map fun k : ℕ => rnd (start + rnd (dt * (k : ℚ)))

/-! ### The header -/

/-- What lines 338-391 of rsr_reader.py derive from the header. -/
structure Hdr where
  nSfdu : Nat
  nPer : Nat
  rate : Nat
  spm : List ℚ
  year : Int
  doy : Int
  dsn : Int
  ulDsn : Int
  band : Nat
  ulBand : Nat
  trackMode : Nat
  gain : Int
  bandwidth : Int

/-- rss_ringoccs/rsr_reader/rsr_reader.py 340. -/
def nSfdu (rnd : ℚ → ℚ) (size : Nat) (bytesPer : Nat) : Nat := (pyInt (rnd (size / bytesPer))).toNat

/-- rss_ringoccs/rsr_reader/rsr_reader.py 345-348. -/
def nPer (rnd : ℚ → ℚ) (bits dataLen : Nat) : Py Nat :=
  let bytesPerSample := rnd (bits / 8)
  let w := rnd (2 * bytesPerSample)
  if w = 0 then .error .zeroDivision
  else .ok (pyInt (rnd (dataLen / w))).toNat

/-- rss_ringoccs/rsr_reader/rsr_reader.py 357. -/
def sampleDt (rnd : ℚ → ℚ) (rate : Nat) : Py ℚ :=
  let hz := rnd (rate * 1000)
  if hz = 0 then .error .zeroDivision else .ok (rnd (1 / hz))

/-- rss_ringoccs/rsr_reader/rsr_reader.py 358-359. -/
def nPoints (rnd : ℚ → ℚ) (s dt : ℚ) (n : Nat) : Nat :=
  let stop := rnd (s + rnd (n * dt))
  (pyRound (rnd (rnd (stop - s) / dt))).toNat

/-- rss_ringoccs/rsr_reader/rsr_reader.py 320-391.  `ul` is the two-letter uplink station in the file name (line 369;
`none` for `MM`).  Rounding a NaN to an integer is a `ValueError`. -/
def readHdr (rnd : ℚ → ℚ) (ul : Option Int) (file : List Byte) : Py Hdr := do
  let v ← unpackFrom hdrFmt (file.take (calcsize hdrFmt))
  let n := nSfdu rnd file.length (intField v "sfdu_length" + 20).toNat
  let per ← nPer rnd (intField v "sh_bits_per_sample").toNat (intField v "Data_length").toNat
  let rate := (intField v "sh_sample_rate").toNat
  let dt ← sampleDt rnd rate
  match dblField v "sh_sfdu_seconds" with
  | .fin s =>
    let pts := nPoints rnd s dt (per * n)
    let year := intField v "sh_year"
    let doy := intField v "sh_doy"
    .ok { nSfdu := n, nPer := per, rate := rate, spm := arange rnd s dt pts
          year := if year = 0 then intField v "sh_sfdu_year" else year
          doy := if doy = 0 then intField v "sh_sfdu_doy" else doy
          dsn := intField v "sh_dss_id"
          ulDsn := ul.getD (intField v "sh_ul_dss_id")
          band := chrField v "sh_dl_band"
          ulBand := chrField v "sh_ulband"
          trackMode := if 2011 < year then 2 else 1
          gain := intField v "sh_fgain_px_no"
          bandwidth := intField v "sh_fgain_if_bandwidth" }
  | _ => .error .value

/-! ### The data -/

/-- rss_ringoccs/rsr_reader/rsr_reader.py 421-433: the first and the last SFDU of a time range.  `spm` is the time of
the samples as recorded.  Other sample rates leave the variables unbound. -/
def sfduRange (rnd : ℚ → ℚ) (h : Hdr) (spm : List ℚ) (lo hi : ℚ) : Py (Nat × Nat) := do
  if ¬ (h.rate = 1 ∨ h.rate = 16 ∨ h.rate = 50) then throw .unboundLocal
  let i ← argmin (spm.map fun x => |rnd (x - lo)|)
  let j ← argmin (spm.map fun x => |rnd (x - hi)|)
  if h.nPer = 0 then throw .zeroDivision
  let a := (pyInt (rnd (i / h.nPer))).toNat
  let b := (pyInt (rnd (j / h.nPer))).toNat
  .ok (a, if h.nSfdu < b then h.nSfdu else b)

/-- rss_ringoccs/rsr_reader/rsr_reader.py 437-446. -/
def sfduFmtOf (bias : Bool) (n : Nat) : List Fmt :=
  sfduFmt ++ haFmt ++ phFmt ++ shFmt ++ (dataHdrFmt ++ (List.replicate n (if bias then [.H, .H] else [.h, .h])).flatten)

/-- Python's `rsr_struct[i * len : i * len + len]`. -/
def sfduBytes (file : List Byte) (len i : Nat) : List Byte := (file.drop (i * len)).take len

/-- `l[a::2]` from the start of `l`. -/
def evens {α : Type} : List α → List α
  | [] => []
  | [x] => [x]
  | x :: _ :: l => x :: evens l

/-- `s[-2n::2]`. -/
def sliceQ (n : Nat) (s : List Val) : List Val := evens (s.drop (s.length - 2 * n))

/-- `s[-2n + 1::2]`. -/
def sliceI (n : Nat) (s : List Val) : List Val := evens (s.drop (s.length - (2 * n - 1)))

/-- The integer in an unpacked data word. -/
def Val.toInt : Val → Int
  | .int z => z
  | _ => 0

/-- rss_ringoccs/rsr_reader/rsr_reader.py 778-797 and 814-832: the loop over the SFDUs.  The arrays start as zeros, the
part filled so far is `acc`; the loop stops at the end of the file. -/
def readLoop (file : List Byte) (fs : List Fmt) (n : Nat) : Nat → Nat → List (Int × Int) → Py (List (Int × Int))
  | 0, _, acc => .ok acc
  | k + 1, i, acc =>
    let sfdu := sfduBytes file (calcsize fs) i
    if sfdu.length = 0 then .ok (acc ++ List.replicate ((k + 1) * n) (0, 0))
    else do
      let s ← unpackFrom fs sfdu
      readLoop file fs n k (i + 1) (acc ++ ((sliceI n s).map Val.toInt).zip ((sliceQ n s).map Val.toInt))

/-- rss_ringoccs/rsr_reader/rsr_reader.py 802-807, one component: two's complement of an unsigned word, then the bias
correction. -/
def biasWord (u : Int) : Int :=
  let x := if u > 2 ^ 15 then u - 2 ^ 16 else u
  x * 2 + 1

/-- rss_ringoccs/rsr_reader/rsr_reader.py 762-836: real and imaginary part of the samples of the SFDUs 0 … `last`. -/
def readIQ (file : List Byte) (bias : Bool) (n last : Nat) : Py (List (Int × Int)) := do
  let raw ← readLoop file (sfduFmtOf bias n) n (last + 1) 0 []
  .ok (if bias then raw.map fun p => (biasWord p.1, biasWord p.2) else raw)

/-! ### Decimation -/

/-- The eight keywords; an argument that is not a Boolean counts as `False` (lines 230-284). -/
structure Flags where
  d50to25 : Bool
  d50to10 : Bool
  d50to5 : Bool
  d50to1 : Bool
  d16to8 : Bool
  d16to4 : Bool
  d16to2 : Bool
  d16to1 : Bool

/-- rss_ringoccs/rsr_reader/rsr_reader.py 644-751: the factors of the successive calls of `decimate` and the new
sample rate in Hz; `none`: no decimation. -/
def decimation (f : Flags) (rate : Nat) : Option (List Nat × Nat) :=
  if f.d50to25 && rate == 50 then some ([2], 25000)
  else if f.d50to10 && rate == 50 then some ([5], 10000)
  else if f.d50to5 && rate == 50 then some ([5, 2], 5000)
  else if f.d50to1 && rate == 50 then some ([5, 5, 2], 1000)
  else if f.d16to8 && rate == 16 then some ([2], 8000)
  else if f.d16to4 && rate == 16 then some ([4], 4000)
  else if f.d16to2 && rate == 16 then some ([4, 2], 2000)
  else if f.d16to1 && rate == 16 then some ([4, 4], 1000)
  else none

/-- `scipy.signal.decimate(x, q, zero_phase=True)`, not in /repo: an arbitrary function. -/
abbrev Decimate (X : Type) := Nat → List X → Py (List X)

/-- Successive decimations. -/
def decimateAll {X : Type} (dec : Decimate X) : List Nat → List X → Py (List X)
  | [], l => .ok l
  | q :: qs, l => do
    let l ← dec q l
    decimateAll dec qs l

/-- What the constructor leaves in the object. -/
structure Reader (X : Type) where
  hdr : Hdr
  spmRaw : List ℚ
  spm : List ℚ
  iq : List X

/-- rss_ringoccs/rsr_reader/rsr_reader.py 218-393 and 595-760: the constructor.  `cplx` makes a complex number of the
two components.  The warnings, the history and the revolution number (line 396) are left out. -/
def construct {X : Type} (rnd : ℚ → ℚ) (cplx : Int × Int → X) (dec : Decimate X) (f : Flags) (bias : Bool)
    (ul : Option Int) (file : List Byte) : Py (Reader X) := do
  let h ← readHdr rnd ul file
  let lo ← pyMin h.spm
  let hi ← pyMax h.spm
  let (_, last) ← sfduRange rnd h h.spm lo hi
  let iq ← readIQ file bias h.nPer last
  let iq := iq.map cplx
  match decimation f h.rate with
  | none => .ok { hdr := h, spmRaw := h.spm, spm := h.spm, iq := iq }
  | some (qs, hz) => do
    let iq ← decimateAll dec qs iq
    let dt := rnd (1 / hz)
    .ok { hdr := h, spmRaw := h.spm, spm := arange rnd (h.spm.headD 0) dt iq.length, iq := iq }

/-! ### The predicted sky frequency -/

/-- The numbers read from one SFDU (lines 557-562). -/
structure Poly where
  stamp : ℚ
  rfif : Int
  ddc : Int
  p1 : Dbl
  p2 : Dbl
  p3 : Dbl

/-- rss_ringoccs/rsr_reader/rsr_reader.py 541-564: the polynomials of `k` SFDUs from number `i` on.  `round_` is
`round(x, round_decimal)`.  At the end of the file the rest of the arrays stays zero. -/
def readPolys (file : List Byte) (fs : List Fmt) (n : Nat) (spm : List ℚ) (round_ : ℚ → ℚ) :
    Nat → Nat → Py (List Poly)
  | 0, _ => .ok []
  | k + 1, i => do
    let sfdu := sfduBytes file (calcsize fs) i
    if sfdu.length = 0 then
      .ok (List.replicate (k + 1) { stamp := 0, rfif := 0, ddc := 0, p1 := .fin 0, p2 := .fin 0, p3 := .fin 0 })
    else do
      let v ← unpackFrom fs sfdu
      match spm[i * n]? with
      | none => .error .index
      | some t => do
        let r ← readPolys file fs n spm round_ k (i + 1)
        .ok ({ stamp := round_ t, rfif := intField v "sh_rfif_lo", ddc := intField v "sh_ddc_lo"
               p1 := dblField v "sh_schan_freq_poly_coef_1", p2 := dblField v "sh_schan_freq_poly_coef_2"
               p3 := dblField v "sh_schan_freq_poly_coef_3" } :: r)

/-- rss_ringoccs/rsr_reader/rsr_reader.py 573-574: the last SFDU whose time stamp is not after `f`. -/
def pickPoly (ps : List Poly) (f : ℚ) : Py Poly :=
  match (ps.filter fun p => p.stamp ≤ f).getLast? with
  | none => .error .index
  | some p => .ok p

/-- rss_ringoccs/rsr_reader/rsr_reader.py 576-581.  Simplification: if one of the coefficients is not finite the result
is just called NaN. -/
def evalPoly (rnd : ℚ → ℚ) (p : Poly) (f : ℚ) : Dbl :=
  let m := rnd (f - pyInt f)
  match p.p1, p.p2, p.p3 with
  | .fin a, .fin b, .fin c =>
    .fin (rnd (rnd (rnd (rnd (rnd (p.rfif + p.ddc) * 1000000) - a) - rnd (b * m)) - rnd (c * rnd (m ^ 2))))
  | _, _, _ => .nan

/-- rss_ringoccs/rsr_reader/rsr_reader.py 462-593 for an array of times.  `round_ d` is `round(x, d)`. -/
def skyFreq {X : Type} (rnd : ℚ → ℚ) (round_ : Nat → ℚ → ℚ) (file : List Byte) (bias : Bool) (r : Reader X)
    (fs : List ℚ) : Py (List Dbl) := do
  if ¬ (r.hdr.rate = 1 ∨ r.hdr.rate = 16 ∨ r.hdr.rate = 50) then throw .systemExit
  let lo ← pyMin fs
  let hi ← pyMax fs
  let (a, b) ← sfduRange rnd r.hdr r.spmRaw lo hi
  let ps ← readPolys file (sfduFmtOf bias r.hdr.nPer) r.hdr.nPer r.spmRaw (round_ (if r.hdr.rate = 1 then 4 else 7))
    (b + 1 - a) a
  fs.mapM fun f => do
    let p ← pickPoly ps f
    .ok (evalPoly rnd p f)

end Verif.Rsr
