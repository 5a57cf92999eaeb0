import Mathlib.Analysis.SpecialFunctions.Trigonometric.Basic

/-!
# The profile in memory as input of the reconstruction

Simplifications: real numbers with exact arithmetic; what is not a finite number is `none`, and stays so under multiplication and division.
-/
namespace Verif.FromInst
open Real

/-- A column. -/
abbrev Col := List (Option ℝ)

/-- The attributes of an object that are columns. -/
abbrev Obj := String → Option Col

/-- What an attribute is set to. -/
inductive Src where
  | copy (a : String)
  | degrees (a : String)
  | zero (a : String)
  | nothing
  deriving DecidableEq

/-- rss_ringoccs/tools/rss_ringoccs_local_tools.py 700-736: the calls of `setattr` in their order. -/
def setters : List (String × Src) :=
  [("B_deg_vals", .degrees "B_rad_vals"), ("D_km_vals", .copy "D_km_vals"), ("f_sky_hz_vals", .copy "f_sky_hz_vals"), ("history", .nothing),
   ("p_norm_vals", .copy "p_norm_vals"), ("phase_deg_vals", .degrees "phase_rad_vals"), ("phi_deg_vals", .degrees "phi_rad_vals"),
   ("phi_rl_deg_vals", .degrees "phi_rl_rad_vals"), ("raw_tau_threshold_vals", .copy "raw_tau_threshold_vals"),
   ("raw_tau_vals", .zero "raw_tau_threshold_vals"), ("rev_info", .nothing), ("rho_corr_pole_km_vals", .zero "raw_tau_threshold_vals"),
   ("rho_corr_timing_km_vals", .zero "raw_tau_threshold_vals"), ("rho_dot_kms_vals", .copy "rho_dot_kms_vals"), ("rho_km_vals", .copy "rho_km_vals"),
   ("rx_km_vals", .copy "rx_km_vals"), ("ry_km_vals", .copy "ry_km_vals"), ("rz_km_vals", .copy "rz_km_vals"),
   ("t_oet_spm_vals", .copy "t_oet_spm_vals"), ("t_ret_spm_vals", .copy "t_ret_spm_vals"), ("t_set_spm_vals", .copy "t_set_spm_vals"),
   ("tau_phase_deg_vals", .nothing), ("tau_power_vals", .nothing), ("tau_phase_deg_vals", .nothing), ("tau_vals", .nothing)]

/-- The value of the second argument of `setattr`; `none` if the instance lacks the attribute.  The inner `none` is Python's `None`. -/
noncomputable def value (inst : Obj) : Src → Option (Option Col)
  | .copy a => (inst a).map some
  | .degrees a => (inst a).map fun c => some (c.map (·.map fun x => x * 180 / π))
  | .zero a => (inst a).map fun c => some (c.map (·.map fun x => x * 0))
  | .nothing => some none

/-- One call of `setattr`. -/
noncomputable def set (inst : Obj) (d : Obj) (s : String × Src) : Option Obj :=
  match value inst s.2 with
  | none => none
  | some v => some fun a => if a = s.1 then v else d a

/-- The calls in turn; `none` after an AttributeError. -/
noncomputable def setAll (inst : Obj) : List (String × Src) → Obj → Option Obj
  | [], d => some d
  | s :: r, d => match set inst d s with
    | none => none
    | some d' => setAll inst r d'

/-- rss_ringoccs/tools/rss_ringoccs_local_tools.py 552-753: `data_from_inst`, without the printing. -/
noncomputable def dataFromInst (inst : Obj) : Option Obj := setAll inst setters fun _ => none

/-- rss_ringoccs/crssringoccs/auxiliary/crssringoccs_py_dlp_to_c_dlp.c 66-157: the attributes that the reconstruction takes. -/
def taken : List String :=
  ["rho_km_vals", "p_norm_vals", "phase_deg_vals", "phi_deg_vals", "phi_rl_deg_vals", "B_deg_vals", "D_km_vals", "f_sky_hz_vals", "rho_dot_kms_vals",
   "t_oet_spm_vals", "t_ret_spm_vals", "t_set_spm_vals", "rx_km_vals", "ry_km_vals", "rz_km_vals", "rho_corr_pole_km_vals", "rho_corr_timing_km_vals",
   "raw_tau_threshold_vals"]

/-- rss_ringoccs/calibration/dlp_class.py 343-364: the attributes of a profile. -/
def made : List String :=
  ["rho_km_vals", "t_oet_spm_vals", "p_norm_vals", "phase_rad_vals", "B_rad_vals", "D_km_vals", "rx_km_vals", "ry_km_vals", "rz_km_vals", "F_km_vals",
   "f_sky_hz_vals", "phi_rad_vals", "t_ret_spm_vals", "t_set_spm_vals", "phi_rl_rad_vals", "rho_dot_kms_vals", "rho_corr_pole_km_vals",
   "rho_corr_timing_km_vals", "tau_vals", "raw_tau_threshold_vals"]

end Verif.FromInst
