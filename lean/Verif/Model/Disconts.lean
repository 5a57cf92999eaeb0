import Verif.Model.OffsetMask

/-!
# Discontinuities of the frequency offset

Simplifications: exact arithmetic of rational numbers; the arguments are the arrays with the mask applied; no two times are equal.
-/
namespace Verif.Cal
open Verif.Rsr Verif.Geo

/-- rss_ringoccs/calibration/freq_offset_fit.py 485-495. -/
def centdiff2 (x f : List ℚ) : List ℚ :=
  [0] ++ ((List.range (x.length - 2)).map fun i =>
    (f.getD (i + 2) 0 - 2 * f.getD (i + 1) 0 + f.getD i 0) / ((x.getD (i + 1) 0 - x.getD i 0) * (x.getD (i + 2) 0 - x.getD (i + 1) 0))) ++ [0]

/-- `scipy.signal.argrelmax(d)[0]` with its defaults: the indices of strict local maxima, never an end. -/
def argrelmax (d : List ℚ) : List Nat :=
  (List.range d.length).filter fun i => decide (0 < i ∧ i + 1 < d.length ∧ d.getD (i - 1) 0 < d.getD i 0 ∧ d.getD (i + 1) 0 < d.getD i 0)

/-- A position in a slice of a list of length `n`. -/
def slicePos (n : Nat) (z : ℤ) : ℤ := if z < 0 then max (z + n) 0 else min z n

/-- The length of `l[a:b]` for a list of length `n`. -/
def sliceLen (n : Nat) (a b : ℤ) : ℤ := max (slicePos n b - slicePos n a) 0

/-- rss_ringoccs/calibration/freq_offset_fit.py 457-474: whether the discontinuity at the position `i` of the list is removed. -/
def spurious (rho f : List ℚ) (df : ℚ) (ds : List ℤ) (i : Nat) : Bool :=
  let d := ds.getD i 0
  let k := d.toNat
  let check1 := sliceLen f.length (ds.getD (i - 1) 0) d < 10
  let check2 := sliceLen f.length d (ds.getD (i + 1) 0) < 10
  let a0 := |f.getD k 0 - f.getD (k - 1) 0|
  let a1 := |f.getD (k + 1) 0 - f.getD k 0|
  let a2 := |f.getD (k + 1) 0 - f.getD (k - 1) 0|
  let check3 := a0 < df ∧ a1 < df ∧ a2 < df
  let check4 := 91000 < rho.getD k 0 ∧ rho.getD k 0 < 119000
  decide (check1 ∨ check2 ∨ check3 ∨ check4)

/-- rss_ringoccs/calibration/freq_offset_fit.py 433-482. -/
def getDisconts (x rho f : List ℚ) (df : ℚ) : Py (List ℤ) := do
  let d := (centdiff2 x f).map fun z => |z|
  let top ← pyMaxL d
  let cut := top / (3 / 2)
  let ds : List ℤ := [0] ++ ((argrelmax d).filter fun i => decide (cut < d.getD i 0)).map (fun i : Nat => (i : ℤ)) ++ [-1]
  let rmv := ((List.range ds.length).filter fun i => decide (1 ≤ i ∧ i + 1 < ds.length) && spurious rho f df ds i).map fun i : Nat => ds.getD i 0
  pure (rmv.foldl List.erase ds)

end Verif.Cal
