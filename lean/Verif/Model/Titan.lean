import Mathlib.Analysis.SpecialFunctions.Trigonometric.Basic

/-!
# Effect of Titan

Simplifications: real numbers with exact arithmetic; the longitude of Titan is an argument; the times rise.
-/
namespace Verif.Titan
open Real

/-- rss_ringoccs/tools/satellite_tools.py 511-536 for the longitude `titan` of Titan; a division by 0 is 0 (NumPy: infinity or NaN). -/
noncomputable def drTitan (titan londeg rkm minDist : ℝ) : ℝ :=
  let dlon := londeg - titan
  let dr := rkm - 77861.5
  let mag := max minDist |dr|
  let dphi := if 0 < dr then 180 else 0
  382 / mag * cos ((dlon - dphi) * (π / 180))

/-- `np.linspace(a, b, n)` for `n` at least 2. -/
noncomputable def linspace (a b : ℝ) (n : Nat) : List ℝ := (List.range n).map fun i : Nat => a + (i : ℝ) * ((b - a) / ((n : ℝ) - 1))

/-- `scipy.interpolate.interp1d(xs, ys, fill_value='extrapolate')(x)` for rising `xs`, at least two. -/
noncomputable def interp1d (xs ys : List ℝ) (x : ℝ) : ℝ :=
  open Classical in
  let hi := min (max (xs.countP fun v => decide (v < x)) 1) (xs.length - 1)
  let lo := hi - 1
  (ys.getD hi 0 - ys.getD lo 0) / (xs.getD hi 0 - xs.getD lo 0) * (x - xs.getD lo 0) + ys.getD lo 0

/-- rss_ringoccs/tools/satellite_tools.py 555-557. -/
noncomputable def drList (titan : ℝ → ℝ) (minDist : ℝ) (ts lons rs : List ℝ) : List ℝ :=
  (ts.zip (lons.zip rs)).map fun q => drTitan (titan q.1) q.2.1 q.2.2 minDist

/-- rss_ringoccs/tools/satellite_tools.py 538-565; `titan` is the longitude of Titan as a function of the time. -/
noncomputable def drTitanVec (titan : ℝ → ℝ) (minDist : ℝ) (nmax : Nat) (ts lons rs : List ℝ) : List ℝ :=
  if nmax < ts.length then
    let ts' := linspace (ts.getD 0 0) (ts.getD (ts.length - 1) 0) nmax
    let dr := drList titan minDist ts' (ts'.map (interp1d ts lons)) (ts'.map (interp1d ts rs))
    ts.map (interp1d ts' dr)
  else drList titan minDist ts lons rs

end Verif.Titan
