import Mathlib.Analysis.SpecialFunctions.Log.Basic
import Mathlib.Analysis.SpecialFunctions.Trigonometric.Basic
import Mathlib.Analysis.SpecialFunctions.Pow.Real
import Mathlib.Data.List.Sort

/-!
# Threshold optical depth

Simplifications: real numbers instead of doubles; no NaN in the tables (`np.nanmax` is `max`); the logarithm of a number that is not positive
and a division by zero are not distinguished (`Real.log 0 = 0`).
-/
namespace Verif.Thr
open Real

open Classical in
/-- `scipy.interpolate.interp1d(x, y, bounds_error=False, fill_value='extrapolate')(v)`, for at least two different `x`; sorts by `x`. -/
noncomputable def interp1d (x y : List ℝ) (v : ℝ) : ℝ :=
  let s := (x.zip y).insertionSort (fun p q => p.1 ≤ q.1)
  let i := min (max (s.countP fun p => decide (p.1 < v)) 1) (s.length - 1)
  let p := s.getD (i - 1) (0, 0)
  let q := s.getD i (0, 0)
  (q.2 - p.2) / (q.1 - p.1) * (v - p.1) + p.2

/-- `np.gradient(f, x, edge_order=2)[i]` for at least three points; for equal distances this is the formula that numpy uses then. -/
noncomputable def gradientAt (f x : List ℝ) (i : Nat) : ℝ :=
  let n := x.length
  let k := if i = 0 then 1 else if i = n - 1 then n - 2 else i
  let d := x.getD k 0 - x.getD (k - 1) 0
  let e := x.getD (k + 1) 0 - x.getD k 0
  let a := if i = 0 then -(2 * d + e) / (d * (d + e)) else if i = n - 1 then e / (d * (d + e)) else -e / (d * (d + e))
  let b := if i = 0 then (d + e) / (d * e) else if i = n - 1 then -(e + d) / (d * e) else (e - d) / (d * e)
  let c := if i = 0 then -d / (e * (d + e)) else if i = n - 1 then (2 * e + d) / (e * (d + e)) else d / (e * (d + e))
  a * f.getD (k - 1) 0 + b * f.getD k 0 + c * f.getD (k + 1) 0

/-- `np.gradient(f, x, edge_order=2)`. -/
noncomputable def gradient (f x : List ℝ) : List ℝ := (List.range x.length).map (gradientAt f x)

/-- What is used of the profile: radii, times, elevations, the first radial velocity, resolution and factor. -/
structure Prof where
  rho : List ℝ
  oet : List ℝ
  B : List ℝ
  rhoDot : List ℝ
  res : ℝ
  factor : ℝ

/-- rss_ringoccs/tools/rss_ringoccs_local_tools.py 421-429: the signal-to-noise ratios, for a positive largest power. -/
noncomputable def snr (pwr : List ℝ) (dBHz : ℝ) : List ℝ :=
  let m := pwr.foldl max (pwr.getD 0 0)
  pwr.map fun p => p / m * (10 : ℝ) ^ (dBHz / 10)

/-- rss_ringoccs/tools/rss_ringoccs_local_tools.py 440-449: the radii at the times of the calibration. -/
noncomputable def rCal (t : Prof) (oetCal : List ℝ) : List ℝ :=
  open Classical in
  if t.rhoDot.getD 0 0 < 0 then (oetCal.reverse.map (interp1d t.oet.reverse t.rho.reverse)).reverse
  else oetCal.map (interp1d t.oet t.rho)

/-- rss_ringoccs/tools/rss_ringoccs_local_tools.py 437 and 452-461: the threshold at the points of the calibration. -/
noncomputable def tauth (t : Prof) (oetCal pwr : List ℝ) (dBHz : ℝ) : List ℝ :=
  let mu := |sin (t.B.getD 0 0 * (π / 180))|
  let dr := t.res * t.factor
  List.zipWith (fun s v => mu * log (1.571733936879165 * s * dr / |v|)) (snr pwr dBHz) (gradient (rCal t oetCal) oetCal)

/-- `compute_tau_threshold`: rss_ringoccs/tools/rss_ringoccs_local_tools.py 396-472; the columns 0 and 3 of the CAL file are `oetCal` and
`pwr`. -/
noncomputable def threshold (t : Prof) (oetCal pwr : List ℝ) (dBHz : ℝ) : List ℝ :=
  t.rho.map (interp1d (rCal t oetCal) (tauth t oetCal pwr dBHz))

end Verif.Thr
