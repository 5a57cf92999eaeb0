import Verif.Model.GeoReal
import Verif.Model.Dlp
import Mathlib.Analysis.SpecialFunctions.Log.Basic

/-!
# Optical depth and its threshold

Simplifications: real or rational numbers with exact arithmetic, for one row; `Real.log` of a number that is not positive, where
numpy gives `-inf` or NaN, is not used by the theorems.  The spectrogram of scipy is an argument.
-/
namespace Verif.Cal
open Real

/-- rss_ringoccs/calibration/dlp_class.py 262 and 365. -/
noncomputable def tauVal (bDeg p : ℝ) : ℝ := -sin (Verif.Geo.toRad bDeg) * log p

/-- rss_ringoccs/calibration/calc_tau_thresh.py 69-85, `noise` from `findNoise`. -/
noncomputable def tauThresh (bDeg rhoDot signal noise resKm cAlpha : ℝ) : ℝ :=
  let bandwidth := abs (rhoDot / resKm)
  let snr := signal / noise;
  -sin (abs (Verif.Geo.toRad bDeg)) * log (0.5 * cAlpha * bandwidth / snr)

/-- rss_ringoccs/calibration/dlp_class.py 200-203, with the default of calc_tau_thresh.py 59. -/
noncomputable def dlpThresh (bDeg rhoDot signal noise drKm : ℝ) : ℝ := tauThresh bDeg rhoDot signal noise drKm 2.41

/-- `np.nanmean` of numbers; `none` is NaN, for no numbers. -/
def nanmean (l : List ℚ) : Option ℚ := if l.length = 0 then none else some (l.sum / l.length)

/-- rss_ringoccs/calibration/calc_tau_thresh.py 116-126; `time` has been given from the start of the record, `sxx` has one row per
frequency. -/
def findNoise (spm freq time : List ℚ) (sxx : List (List ℚ)) : Option ℚ := do
  let time := time.map fun t => t + spm.getD 0 0
  let rows := ((freq.zip sxx).filter fun p => decide (-450 < p.1 ∧ p.1 < -200) || decide (200 < p.1 ∧ p.1 < 450)).map (·.2)
  let filt ← (List.range time.length).mapM fun i => nanmean (rows.map fun r => r.getD i 0)
  let tmin := spm.getD 0 0 + 1000
  let tmax := spm.getD (spm.length - 1) 0 - 1000
  nanmean (((time.zip filt).filter fun p => decide (p.1 < tmin) || decide (tmax < p.1)).map (·.2))

end Verif.Cal
