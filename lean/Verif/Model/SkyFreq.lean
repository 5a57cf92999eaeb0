import Verif.Model.GeoReal
import Verif.Model.Rsr
import Mathlib.Analysis.SpecialFunctions.Log.Basic

/-!
# Sky frequency from the reconstructed trajectory

Simplifications: real numbers with exact arithmetic; positions and velocities relative to the barycentre of the solar system, and
times of emission, which SPICE computes from kernels, are arguments.  `lightSpeed` (`spice.clight()`): `Verif.Model.GeoReal`.
-/
namespace Verif.Cal
open Real Verif.Geo

/-- rss_ringoccs/calibration/calc_f_sky_recon.py 30. -/
noncomputable def ltFac : ℝ := 9.8509818970128e-6

/-- rss_ringoccs/calibration/calc_f_sky_recon.py 147-180: position and velocity of the sender at the time of emission, and of the
receiver at the time of reception. -/
noncomputable def derlt (r1 v1 r2 v2 : V3) : ℝ :=
  let s12 := r2.sub r1
  let dr1dt1 := r1.hat.dot v1
  let dr2dt2 := r2.hat.dot v2
  let pr12t2 := s12.hat.dot v2
  let pr12t1 := -s12.hat.dot v1
  let d1 := r1.norm + r2.norm + s12.norm
  let d2 := r1.norm + r2.norm - s12.norm
  let temp1 := dr1dt1 + dr2dt2
  let temp2 := pr12t1 + pr12t2
  let numer := ((temp1 + temp2) / d1 - (temp1 - temp2) / d2) * ltFac + (pr12t1 + pr12t2) / lightSpeed
  let denom := ((dr1dt1 + pr12t1) / d1 - (dr1dt1 - pr12t1) / d2) * ltFac + pr12t1 / lightSpeed + 1
  numer / denom

/-- rss_ringoccs/calibration/calc_f_sky_recon.py 33-47. -/
noncomputable def gmTable : List (Nat × ℝ) :=
  [1, 2, 399, 4, 5, 6, 7, 8, 9, 10, 301, 606].zip
    [2.2032080000000e4, 3.2485859900000e5, 3.9860043600000e5, 4.2828314000000e4, 1.2671276786300e8, 3.7940626063000e7,
      5.7945490070000e6, 6.8365340640000e6, 9.8160100000000e2, 1.3271244002331e11, 4.9027990000000e3, 8.9781370309840e3]

/-- rss_ringoccs/calibration/calc_f_sky_recon.py 194-219; `body id` is the position of a body.  A distance 0 raises an error in
Python, which is not used by the theorems. -/
noncomputable def derpt (body : Nat → V3) (r v : V3) : ℝ :=
  let phi := (gmTable.map fun p => p.2 / ((body p.1).sub r).norm).sum
  (phi + 0.5 * (v.x ^ 2 + v.y ^ 2 + v.z ^ 2)) / lightSpeed ^ 2 - 1.550520e-8

/-- rss_ringoccs/calibration/calc_f_sky_recon.py 94-97. -/
noncomputable def skyOneWay (fUso a23 b2 b3 : ℝ) : ℝ :=
  let temp := (b2 - b3) / (1 - b3)
  let y := (-a23 * temp + a23 + temp) * fUso
  fUso - y

/-- rss_ringoccs/calibration/calc_f_sky_recon.py 117-121. -/
noncomputable def skyMultiWay (fUso turn a12 a23 b1 b3 : ℝ) : ℝ :=
  let temp := (b1 - b3) / (1 - b3)
  let z := a12 * a23 * temp - a12 * a23 - (a12 + a23) * temp + temp + a12 + a23
  fUso * turn - z * (fUso * turn)

/-- A band of radio frequencies. -/
inductive Band | s | x | k
  deriving DecidableEq

/-- rss_ringoccs/calibration/calc_f_sky_recon.py 51-53: `TURNR[up-down]`. -/
def turnr : Band → Band → ℚ
  | .s, .s => 240 / 221
  | .s, .x => 880 / 221
  | .s, .k => 0 / 221
  | .x, .s => 240 / 749
  | .x, .x => 880 / 749
  | .x, .k => 3344 / 749
  | .k, .s => 0 / 3599
  | .k, .x => 0 / 3599
  | .k, .k => 3360 / 3600

end Verif.Cal
