import Mathlib.Analysis.SpecialFunctions.Trigonometric.Basic
import Mathlib.Analysis.SpecialFunctions.Pow.Real

/-!
# The threshold optical depth from files of the archive: rss_ringoccs/tools/rss_ringoccs_local_tools.py 474-550

Simplifications: real arithmetic, no NaN; the radial velocities at the times of the CAL file and the elevations there are given; the interpolation of the
result to the radii of the TAU file is left out.
-/
namespace Verif.PdsThr
open Real

/-- rss_ringoccs_local_tools.py 507: the largest power; at least 1 sample. -/
noncomputable def peak : List ℝ → ℝ
  | [] => 0
  | p :: ps => ps.foldl max p

/-- rss_ringoccs_local_tools.py 507-511: the signal-to-noise ratio of a power. -/
noncomputable def snr (pwr : List ℝ) (dBHz p : ℝ) : ℝ := p / peak pwr * (10 : ℝ) ^ (dBHz / 10)

/-- rss_ringoccs_local_tools.py 498-499: the sine of the elevation, of the first row. -/
noncomputable def mu (bdeg : List ℝ) : ℝ := |sin (bdeg.headD 0 * (π / 180))|

/-- rss_ringoccs_local_tools.py 530-533: the threshold at one time. -/
noncomputable def thr (bdeg pwr : List ℝ) (dBHz res fac p rhodot : ℝ) : ℝ :=
  mu bdeg * log (1.571733936879165 * snr pwr dBHz p * (res * fac) / |rhodot|)

end Verif.PdsThr
