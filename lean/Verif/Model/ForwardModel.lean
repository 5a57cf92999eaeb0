import Mathlib.Data.Rat.Floor
import Mathlib.Algebra.Order.Field.Basic

/-!
# The modelled rings of `ModelFromGEO`

rss_ringoccs/tools/advanced_tools.py 159-795.  Numbers are exact.  An error of Python is one of `Fail`.  What the C library computes from the
profile is a parameter.
-/
namespace Verif.Fwd

/-- How a call ends without a result. -/
inductive Fail | name | value | index | type
  deriving DecidableEq, Repr

/-- rss_ringoccs/tools/advanced_tools.py 470, 572-573, 590-591, 608, 622, 640, 654: the indices in `(..).nonzero()`. -/
def nonzero (p : ℚ → Bool) (l : List ℚ) : List Nat := (List.range l.length).filter fun i => p (l.getD i 0)

/-- rss_ringoccs/tools/advanced_tools.py 572, `numpy.min(..)` of the indices: a `ValueError` when there are none. -/
def minIdx (p : ℚ → Bool) (l : List ℚ) : Option Nat := (nonzero p l).min?

/-- rss_ringoccs/tools/advanced_tools.py 573, `numpy.max(..)` of the indices. -/
def maxIdx (p : ℚ → Bool) (l : List ℚ) : Option Nat := (nonzero p l).max?

/-- rss_ringoccs/tools/advanced_tools.py 574, `l[a:b] = v` with bounds that are not negative. -/
def setSlice (l : List ℚ) (a b : Nat) (v : ℚ) : List ℚ := l.mapIdx fun i x => if a ≤ i ∧ i < b then v else x

/-- rss_ringoccs/tools/advanced_tools.py 374-375, `numpy.arange(lo, hi, dx)`. -/
def grid (lo hi dx : ℚ) : List ℚ := (List.range ⌈(hi - lo) / dx⌉₊).map fun (i : ℕ) => lo + i * dx

/-- rss_ringoccs/tools/advanced_tools.py 569-574: the power behind a ringlet. -/
def ringlet (r : List ℚ) (rho width opacity : ℚ) : Except Fail (List ℚ) :=
  match minIdx (fun x => decide (rho - width / 2 ≤ x)) r, maxIdx (fun x => decide (x ≤ rho + width / 2)) r with
  | some a, some b => .ok (setSlice (List.replicate r.length 1) a (b + 1) opacity)
  | _, _ => .error .value

/-- rss_ringoccs/tools/advanced_tools.py 587-592: a gap. -/
def gap (r : List ℚ) (rho width opacity : ℚ) : Except Fail (List ℚ) :=
  match minIdx (fun x => decide (rho - width / 2 ≤ x)) r, maxIdx (fun x => decide (x ≤ rho + width / 2)) r with
  | some a, some b => .ok (setSlice (List.replicate r.length opacity) a (b + 1) 1)
  | _, _ => .error .value

/-- rss_ringoccs/tools/advanced_tools.py 605-609: free on the right; the slice `[rstart:-1]` ends before the last sample. -/
def rightEdge (r : List ℚ) (rho opacity : ℚ) : Except Fail (List ℚ) :=
  match minIdx (fun x => decide (rho ≤ x)) r with
  | some a => .ok (setSlice (List.replicate r.length opacity) a (r.length - 1) 1)
  | none => .error .value

/-- rss_ringoccs/tools/advanced_tools.py 619-623: free on the left; the slice `[0:rfinsh]` ends before the sample of the edge. -/
def leftEdge (r : List ℚ) (rho opacity : ℚ) : Except Fail (List ℚ) :=
  match maxIdx (fun x => decide (x ≤ rho)) r with
  | some b => .ok (setSlice (List.replicate r.length opacity) 0 b 1)
  | none => .error .value

/-- rss_ringoccs/tools/advanced_tools.py 644-645: the loop over the waves. -/
def waves (l : List ℚ) (nstart n : Nat) : Nat → List ℚ
  | 0 => l
  | k + 1 => setSlice (waves l nstart n k) (nstart + 2 * k * n) (nstart + (2 * k + 1) * n) 1

/-- rss_ringoccs/tools/advanced_tools.py 635-645; the radii are positive, so that `int` is the floor. -/
def squareWave (r : List ℚ) (width dx : ℚ) : Except Fail (List ℚ) :=
  match r.head?, r.getLast? with
  | some first, some last =>
    let N := ⌊(last - first) / (2 * width)⌋₊
    let n := ⌊width / dx⌋₊
    let rstart := (⌊first / (2 * width)⌋₊ : ℚ) * 2 * width + width
    match minIdx (fun x => decide (rstart ≤ x)) r with
    | some nstart => .ok (waves (setSlice (List.replicate r.length 0) 0 nstart 1) (nstart + n) n (N - 1))
    | none => .error .value
  | _, _ => .error .index

/-- rss_ringoccs/tools/advanced_tools.py 653-656. -/
def deltaImpulse (r : List ℚ) (rho dx : ℚ) : Except Fail (List ℚ) :=
  match minIdx (fun x => decide (rho ≤ x)) r with
  | some c => .ok (setSlice (List.replicate r.length 0) c (c + 1) (1 / dx))
  | none => .error .value

/-- The columns of the GEO file that are used. -/
structure Cols where
  rho : List ℚ
  phi : List ℚ
  b : List ℚ
  d : List ℚ
  drho : List ℚ
  phiRl : List ℚ
  tRet : List ℚ
  tOet : List ℚ
  tSet : List ℚ
  deriving DecidableEq

/-- rss_ringoccs/tools/advanced_tools.py 322-371: the direction of the event; `numpy.min` of an empty column is a `ValueError`, the second of
fewer than two radii an `IndexError`. -/
def orient (c : Cols) : Except Fail Cols :=
  match c.drho.min?, c.drho.max? with
  | some lo, some hi =>
    match c.rho with
    | r0 :: r1 :: _ =>
      if lo < 0 ∧ 0 < hi then .error .value
      else if lo = 0 ∨ hi = 0 then .error .value
      else if 0 < r1 - r0 ∧ hi < 0 then .ok { c with drho := c.drho.map (|·|) }
      else if r1 - r0 < 0 ∧ 0 < lo then .error .value
      else if r1 - r0 < 0 then
        .ok { c with rho := c.rho.reverse, phi := c.phi.reverse, b := c.b.reverse, d := c.d.reverse, drho := (c.drho.reverse).map (|·|) }
      else .ok c
    | _ => .error .index
  | _, _ => .error .value

/-- rss_ringoccs/tools/advanced_tools.py 400-405: the part of the given profile that is interpolated, for radii from `lo` to `hi`; the slices end
before `rfinsh`. -/
def cutData (lo hi : ℚ) (rho pow : List ℚ) : Except Fail (List ℚ × List ℚ) :=
  match minIdx (fun x => decide (lo ≤ x)) rho, maxIdx (fun x => decide (x ≤ hi)) rho with
  | some a, some b => .ok ((rho.take b).drop a, (pow.take b).drop a)
  | _, _ => .error .value

/-- Python's `fmt % arg` for a text with one argument, as in rss_ringoccs/tools/advanced_tools.py 440-446: `%s` is replaced, `%%` is a per cent
sign; another character after the sign is a `ValueError` (`none`), as is an argument too few or too many. -/
def pct : List Char → Option (List Char) → Option (List Char)
  | [], none => some []
  | [], some _ => none
  | '%' :: 's' :: f, some a => (pct f none).map (a ++ ·)
  | '%' :: '%' :: f, a => (pct f a).map ('%' :: ·)
  | '%' :: _, _ => none
  | c :: f, a => (pct f a).map (c :: ·)

/-- `text.split(sep)` -/
def pieces (sep : Char) : List Char → List (List Char)
  | [] => [[]]
  | c :: cs =>
    if c = sep then [] :: pieces sep cs
    else
      match pieces sep cs with
      | p :: ps => (c :: p) :: ps
      | [] => [[c]]

/-- What is known about the event. -/
structure Info where
  band : List Char
  year : List Char
  doy : List Char
  dsn : List Char
  prof : List Char
  deriving DecidableEq

/-- rss_ringoccs/tools/advanced_tools.py 447-455. -/
def unknown : Info := ⟨"Unknown".toList, "Unknown".toList, "Unknown".toList, "Unknown".toList, "Unknown".toList⟩

/-- rss_ringoccs/tools/advanced_tools.py 434-467; `rev` is whether the revolution of the date is found.  Every error leads to `unknown`. -/
def revInfo (rev : List Char → List Char → Bool) (geo : List Char) : Info :=
  let var := pieces '_' ((pieces '/' geo).getLastD [])
  let tried : Option Info := do
    let v3 ← var[3]?
    let b ← v3.head?
    let band ← pct "\"%s\"".toList (some [b])
    let year ← var[1]?
    let doy ← var[2]?
    let dsn ← pct "DSS-%s".toList (some v3.tail)
    if rev year doy then
      let v4 ← var[4]?
      let prof ← pct "\"%s%\"".toList (some v4)
      some ⟨band, year, doy, dsn, prof⟩
    else none
  tried.getD unknown

/-- rss_ringoccs/tools/advanced_tools.py 1-3: the names that the module defines or imports. -/
def names : List String := ["numpy", "rss_ringoccs", "error_check", "history", "CompareTau", "FindOptimalResolution", "ModelFromGEO"]

/-- The use of a name. -/
def need (n : String) : Except Fail Unit := if n ∈ names then .ok () else .error .name

/-- rss_ringoccs/tools/advanced_tools.py 160-208: `checks` is whether the arguments pass, `rest` what follows. -/
def modelFromGEO {α : Type} (checks : Bool) (rest : Except Fail α) : Except Fail α :=
  if checks then need "CSV_tools" >>= fun _ => rest else .error .type

/-- rss_ringoccs/tools/advanced_tools.py 7-81: `data` is whether the files can be read. -/
def compareTau {α : Type} (checks data : Bool) (rest : Except Fail α) : Except Fail α :=
  if checks then if data then need "rss" >>= fun _ => rest else .error .value else .error .type

/-- rss_ringoccs/tools/advanced_tools.py 143-156: the loops over the resolutions and the windows, with the work `step`. -/
def resLoop (nres nwins : Nat) (step : Except Fail Unit) : Except Fail Unit :=
  match nres with
  | 0 => .ok ()
  | k + 1 => (List.range nwins).foldlM (fun _ _ => need "rss" >>= fun _ => step) () >>= fun _ => resLoop k nwins step

/-- rss_ringoccs/tools/advanced_tools.py 85-156: the length of `ideal_res` at the end. -/
def findOptimal (checks data : Bool) (nres : Nat) (nwins : Nat) (step : Except Fail Unit) : Except Fail Nat :=
  if checks ∧ 0 < nres then if data then resLoop nres nwins step >>= fun _ => .ok nwins else .error .value else .error .type

end Verif.Fwd
