import Mathlib.Algebra.Order.Field.Rat
import Mathlib.Tactic.NormNum

/-!
# What a label says about a table

Independent of the model.
-/
namespace Verif.Pds.Spec

/-- The characters `start`, …, `start + bytes - 1` of a line, counted from 1. -/
def field (line : List Char) (start bytes : Nat) : List Char := (line.drop (start - 1)).take bytes

/-- The number that digits denote. -/
def number : List Char → ℚ := List.foldl (fun n c => 10 * n + ((c.toNat : ℚ) - 48)) 0

/-- A decimal digit. -/
def Digit (c : Char) : Prop := '0' ≤ c ∧ c ≤ '9'

/-- The text `s` is `x` with six decimals: spaces, a minus sign if `x` is negative, digits, a point and six digits. -/
def Six (s : List Char) (x : ℚ) : Prop := ∃ (k : Nat) (a b : List Char), s = List.replicate k ' ' ++ (if x < 0 then ['-'] else []) ++ a ++ '.' :: b ∧
  a ≠ [] ∧ b.length = 6 ∧ (∀ c ∈ a ++ b, Digit c) ∧ |number (a ++ b) / 10 ^ 6 - abs x| ≤ 1 / 2 / 10 ^ 6

/-- The name that a column should have in the label. -/
def nameOf : List (String × String × String) :=
  [("t_oet_spm", "OBSERVED EVENT TIME", "SECOND"), ("t_ret_spm", "RING EVENT TIME", "SECOND"), ("t_set_spm", "SPACECRAFT EVENT TIME", "SECOND"),
    ("rho_km", "RING RADIUS", "KILOMETER"), ("phi_rl_deg", "RING LONGITUDE", "DEGREE"), ("phi_ora_deg", "OBSERVED RING AZIMUTH", "DEGREE"),
    ("B_deg", "OBSERVED RING ELEVATION", "DEGREE"), ("D_km", "SPACECRAFT TO RING INTERCEPT DISTANCE", "KILOMETER"),
    ("rho_dot_kms", "RING INTERCEPT RADIAL VELOCITY", "KM/SEC"), ("phi_rl_dot_kms", "RING INTERCEPT AZIMUTHAL VELOCITY", "KM/SEC"),
    ("F_km", "FRESNEL SCALE", "KILOMETER"), ("R_imp_km", "IMPACT RADIUS", "KILOMETER"), ("rx_km", "SPACECRAFT POSITION X", "KILOMETER"),
    ("ry_km", "SPACECRAFT POSITION Y", "KILOMETER"), ("rz_km", "SPACECRAFT POSITION Z", "KILOMETER"), ("vx_kms", "SPACECRAFT VELOCITY X", "KM/SEC"),
    ("vy_kms", "SPACECRAFT VELOCITY Y", "KM/SEC"), ("vz_kms", "SPACECRAFT VELOCITY Z", "KM/SEC"), ("elev_deg", "OBSERVED SPACECRAFT LATITUDE", "DEGREE"),
    ("t_ul_spm", "UPLINK TRANSMISSION TIME", "SECOND"), ("t_ul_ret_spm", "UPLINK RING EVENT TIME", "SECOND"),
    ("ul_rho_km", "UPLINK RING RADIUS", "KILOMETER"), ("ul_phi_rl_deg", "UPLINK RING LONGITUDE", "DEGREE"),
    ("ul_phi_ora_deg", "UPLINK OBSERVED RING AZIMUTH", "DEGREE"), ("f_sky_hz", "SKY FREQUENCY", "HERTZ"), ("f_offset_fit", "OFFSET FREQUENCY", "HERTZ"),
    ("p_free", "FREESPACE POWER", "N/A"), ("rho_corr_pole_km", "RADIUS CORRECTION DUE TO IMPROVED POLE", "KILOMETER"),
    ("rho_corr_timing_km", "RADIUS CORRECTION DUE TO TIMING OFFSET", "KILOMETER"), ("p_norm", "NORMALIZED SIGNAL POWER", "N/A"),
    ("tau_norm", "NORMAL OPTICAL DEPTH", "N/A"), ("phase_deg", "PHASE SHIFT", "DEGREE"),
    ("raw_tau_threshold", "NORMAL OPTICAL DEPTH THRESHOLD", "N/A")]

end Verif.Pds.Spec
