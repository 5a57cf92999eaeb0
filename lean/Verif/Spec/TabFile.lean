import Verif.Model.Csv
import Verif.Spec.Pds

/-!
# What is written in a table and what should be read from it

Independent of the writer and of the reader.
-/
namespace Verif.Pds.Spec
open Verif

/-- Where a written column belongs in the objects of the reader. -/
def meaning : List (String × List (Kind × Col)) :=
  [("t_oet_spm", [(.geo, .tOet), (.cal, .tOet), (.dlp, .tOet), (.tau, .tOet)]), ("t_ret_spm", [(.geo, .tRet), (.dlp, .tRet), (.tau, .tRet)]),
    ("t_set_spm", [(.geo, .tSet), (.dlp, .tSet), (.tau, .tSet)]), ("rho_km", [(.geo, .rho), (.dlp, .rho), (.tau, .rho)]),
    ("phi_rl_deg", [(.geo, .phiRl), (.dlp, .phiRl), (.tau, .phiRl)]), ("phi_ora_deg", [(.geo, .phi), (.dlp, .phi), (.tau, .phi)]),
    ("B_deg", [(.geo, .B), (.dlp, .B), (.tau, .B)]), ("D_km", [(.geo, .D)]), ("rho_dot_kms", [(.geo, .rhoDot)]),
    ("phi_rl_dot_kms", [(.geo, .phiRlDot)]), ("F_km", [(.geo, .F)]), ("R_imp_km", [(.geo, .rImp)]), ("rx_km", [(.geo, .rx)]),
    ("ry_km", [(.geo, .ry)]), ("rz_km", [(.geo, .rz)]), ("vx_kms", [(.geo, .vx)]), ("vy_kms", [(.geo, .vy)]), ("vz_kms", [(.geo, .vz)]),
    ("elev_deg", [(.geo, .obsLat)]), ("f_sky_hz", [(.cal, .fSkyPred)]), ("f_offset_fit", [(.cal, .fSkyResid)]), ("p_free", [(.cal, .pFree)]),
    ("rho_corr_pole_km", [(.dlp, .rhoPole), (.tau, .rhoPole)]), ("rho_corr_timing_km", [(.dlp, .rhoTiming), (.tau, .rhoTiming)]),
    ("p_norm", [(.dlp, .pNorm), (.tau, .power)]), ("tau_norm", [(.dlp, .rawTau), (.tau, .tau)]), ("phase_deg", [(.dlp, .phase), (.tau, .phase)]),
    ("raw_tau_threshold", [(.dlp, .rawTauThr), (.tau, .tauThr)])]

/-- The column `name` of a file of kind `k` belongs in `c`. -/
def Belongs (k : Kind) (name : String) (c : Col) : Prop := ∃ l, (name, l) ∈ meaning ∧ (k, c) ∈ l

/-- What is assumed of `atof`: it reads decimal numbers, with spaces in front and perhaps a carriage return behind, up to the rounding `rnd`. -/
structure ReadsNumbers (atof : List Char → Dbl) (rnd : ℚ → ℚ) : Prop where
  decimal : ∀ (k : Nat) (neg : Bool) (a b tail : List Char), a ≠ [] → (∀ c ∈ a ++ b, Digit c) → tail = [] ∨ tail = ['\r'] →
    atof (List.replicate k ' ' ++ (if neg then ['-'] else []) ++ a ++ '.' :: b ++ tail) =
      .fin (rnd ((if neg then -1 else 1) * (number (a ++ b) / 10 ^ b.length)))
  exponent : ∀ (k : Nat) (neg down : Bool) (a b d tail : List Char) (e : Nat), a ≠ [] → d ≠ [] → (∀ c ∈ a ++ b ++ d, Digit c) →
    tail = [] ∨ tail = ['\r'] → number d = e →
    atof (List.replicate k ' ' ++ (if neg then ['-'] else []) ++ a ++ '.' :: b ++ 'E' :: (if down then '-' else '+') :: d ++ tail) =
      .fin (rnd ((if neg then -1 else 1) * (number (a ++ b) / 10 ^ b.length) * (10 : ℚ) ^ (if down then -(e : ℤ) else (e : ℤ))))

/-- The numbers that a table can hold: not too large and, unless zero, not too small. -/
def Writable (x : ℚ) : Prop := |x| < 10 ^ 30 ∧ (x = 0 ∨ 1 / 10 ^ 300 ≤ |x|)

/-- How near a number is written: these columns have seven digits, the others six decimals. -/
def nearness (name : String) (x : ℚ) : ℚ :=
  if name ∈ ["p_norm", "tau_norm", "raw_tau_threshold"] then |x| / 2 / 10 ^ 6 else 1 / 2 / 10 ^ 6

end Verif.Pds.Spec
