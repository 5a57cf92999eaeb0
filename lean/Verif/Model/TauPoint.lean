import Mathlib.Analysis.SpecialFunctions.Complex.Arg
import Mathlib.Analysis.SpecialFunctions.Log.Basic
import Mathlib.Analysis.SpecialFunctions.Sqrt

/-!
# What is written for a point of a diffraction-corrected profile

Simplifications: real and complex numbers instead of doubles; the sign of zero is not modelled (for a negative real value `arctan2` may give
−180° instead of 180°).
-/
namespace Verif.Pds

/-- What a division by zero in the logarithm leads to. -/
inductive Depth
  | real (x : ℝ)
  | inf
  | nan

/-- `np.radians`, `np.degrees`. -/
noncomputable def radians (x : ℝ) : ℝ := x * (Real.pi / 180)

/-- The inverse of `radians`. -/
noncomputable def degrees (x : ℝ) : ℝ := x * (180 / Real.pi)

/-- `np.arctan2(y, x)`. -/
noncomputable def arctan2 (y x : ℝ) : ℝ := Complex.arg ⟨x, y⟩

/-- rss_ringoccs/tools/pds3_tau_series.py 91: `np.abs(T_out**2)`. -/
noncomputable def tauPower (T : ℂ) : ℝ := ‖T ^ 2‖

open Classical in
/-- rss_ringoccs/tools/pds3_tau_series.py 93: `-np.log(np.abs(T_out**2))*np.abs(np.sin(np.radians(B_deg)))`; the logarithm of zero is `-inf`. -/
noncomputable def tauDepth (T : ℂ) (B : ℝ) : Depth :=
  if ‖T ^ 2‖ = 0 then (if |Real.sin (radians B)| = 0 then .nan else .inf)
  else .real (-Real.log ‖T ^ 2‖ * |Real.sin (radians B)|)

/-- rss_ringoccs/tools/pds3_tau_series.py 95: `np.degrees(np.arctan2(np.imag(-T_out), np.real(T_out)))`. -/
noncomputable def tauPhase (T : ℂ) : ℝ := degrees (arctan2 (-T).im T.re)

/-- rss_ringoccs/tools/pds3_tau_series.py 80-83: the threshold, `none` for an attribute `None`. -/
def tauThreshold (vals : Option (List ℝ)) (n : Nat) : Option ℝ :=
  match vals with
  | none => some 0
  | some l => l[n]?

/-- src/tau/rss_ringoccs_tau_compute_data_from_dlp_members.c 95-97: the complex amplitude from power and phase. -/
noncomputable def amplitude (p phase : ℝ) : ℂ := (Real.sqrt p : ℂ) * Complex.exp (((-phase) * (Real.pi / 180) : ℝ) * Complex.I)

/-- rss_ringoccs/calibration/dlp_class.py 195-197 and rss_ringoccs/tools/pds3_dlp_series.py 86: the phase of the profile before the correction, in
degrees. -/
noncomputable def dlpPhase (IQ : ℂ) : ℝ := degrees (arctan2 IQ.im IQ.re)

/-- src/csv_tools/rss_ringoccs_csv_data_interpolate_tau.c 74-96 (format without power): the power from the optical depth. -/
noncomputable def powerOf (tau B : ℝ) : ℝ := Real.exp (-tau / Real.sin (|B| * (Real.pi / 180)))

end Verif.Pds
