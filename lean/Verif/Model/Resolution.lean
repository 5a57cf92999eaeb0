import Mathlib.Analysis.SpecialFunctions.Exp
import Mathlib.Analysis.Real.Pi.Bounds

/-!
# The resolution of a reconstruction, as C chooses the window and as Python estimates it

Simplifications: real numbers; one row of the loop (which rows are used is in Model/Window).
-/
namespace Verif.Resln
open Real

/-- rss_ringoccs/tools/rss_ringoccs_local_tools.py 231-238: `b_MTR33`; the argument `band` is not used. -/
noncomputable def bMTR33 (f0 : ℝ) (_band : Char) (sigma rhodot W : ℝ) : ℝ := (2 * π * f0 * sigma) ^ 2 * (W / 1.65) / (2 * rhodot)

/-- rss_ringoccs/tools/rss_ringoccs_local_tools.py 755-759: `DeltaR_phi_MTR32`. -/
noncomputable def deltaPhi (b dW : ℝ) : ℝ := dW * (b ^ 2 / 2) / (exp (-b) + b - 1)

/-- rss_ringoccs/tools/rss_ringoccs_local_tools.py 761-765: `DeltaR_inf_MTR3`. -/
noncomputable def deltaInf (b Weff F : ℝ) : ℝ := F ^ 2 * b / Weff

/-- rss_ringoccs/tools/rss_ringoccs_local_tools.py 2384: the resolution of a window of effective width `Weff`. -/
noncomputable def deltaW (F Weff : ℝ) : ℝ := 2 * F ^ 2 / Weff

/-- The wavenumber of a frequency: src/tau/rss_ringoccs_tau_compute_data_from_dlp_members.c 98-103 with the functions of libtmpl that are named there. -/
noncomputable def wavenumber (c f : ℝ) : ℝ := 2 * π / (c / f)

/-- src/tau/rss_ringoccs_tau_get_window_width.c 112-114: `alpha[n]`. -/
noncomputable def alpha (c k sigma rhodot : ℝ) : ℝ := c * k * sigma * (c * k * sigma * 0.5 / rhodot)

/-- src/tau/rss_ringoccs_tau_get_window_width.c 115: `P_vals[n]`. -/
noncomputable def pVal (res a F : ℝ) : ℝ := res / (a * F * F)

/-- src/tau/rss_ringoccs_tau_get_window_width.c 122-125: the width, for a function `inv` of libtmpl. -/
noncomputable def width (normeq : ℝ) (inv : ℝ → ℝ) (p a : ℝ) : ℝ := normeq * inv p / a

end Verif.Resln
