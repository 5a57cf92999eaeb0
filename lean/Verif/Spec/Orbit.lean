import Mathlib.Analysis.SpecialFunctions.Pow.Real
import Mathlib.Analysis.Calculus.Deriv.Basic

/-!
# Orbits about an oblate planet

The motion in the plane of the equator follows from the potential.  The state is that of Renner and Sicardy (2006), equations 2 to 7;
independent of the model.
-/
namespace Verif.Orb.Spec
open Real

/-- The potential in the plane of the equator at the distance `a`, with the values -1/2, 3/8 and -5/16 of the Legendre polynomials
2, 4 and 6 at 0. -/
noncomputable def potential (GM R J2 J4 J6 a : ℝ) : ℝ :=
  -(GM / a) * (1 - (J2 * (R / a) ^ 2 * (-1 / 2) + J4 * (R / a) ^ 4 * (3 / 8) + J6 * (R / a) ^ 6 * (-5 / 16)))

/-- The frequencies of the circular motion and of small radial and vertical oscillations about it, squared, as functions of the
distance, and two more that follow from their derivatives. -/
structure Epicyclic (Phi Om2 kap2 nu2 eta2 chi2 : ℝ → ℝ) : Prop where
  circular : ∀ a, 0 < a → HasDerivAt Phi (a * Om2 a) a
  radial : ∀ a, 0 < a → HasDerivAt Om2 ((kap2 a - 4 * Om2 a) / a) a
  vertical : ∀ a, 0 < a → kap2 a + nu2 a = 2 * Om2 a
  eta : ∀ a, 0 < a → HasDerivAt kap2 (6 / a * (kap2 a / 2 - eta2 a)) a
  chi : ∀ a, 0 < a → HasDerivAt nu2 (-(3 / a) * chi2 a) a

/-- Distance; `M = λ - ϖ`, `F = λ - Ω`, `eta = η²/κ²`, `chi = χ²/κ²`, `al = χ²/α²`. -/
noncomputable def radius (a e i eta chi al M F : ℝ) : ℝ :=
  a * (1 - e * cos M + e ^ 2 * (3 * eta / 2 - 1 - eta / 2 * cos (2 * M)) + i ^ 2 * (3 * chi / 4 - 1 + al / 4 * cos (2 * F)))

/-- Longitude less mean longitude; `k = κ/n`, `v = ν/n`. -/
noncomputable def equation (e i eta al k v M F : ℝ) : ℝ :=
  2 * e / k * sin M + e ^ 2 * (3 / 4 + eta / 2) / k * sin (2 * M) - i ^ 2 * (al / 4) / v * sin (2 * F)

/-- Height; `c1 = χ²/(κ α₁)`, `c2 = χ²/(κ α₂)`. -/
noncomputable def height (a e i c1 c2 M F : ℝ) : ℝ :=
  a * i * (sin F + e * (c1 / 2) * sin (M + F) - e * (3 / 2 * c2) * sin (F - M))

/-- The mean rate of the longitude in units of `n`. -/
noncomputable def secular (e i eta chi k : ℝ) : ℝ :=
  1 + e ^ 2 * (7 / 2 - 3 * eta - k ^ 2 / 2) + i ^ 2 * (2 - k ^ 2 / 2 - 3 / 2 * chi)

/-- The state at the time 0 of a body with mean longitude `lam`, if `M` and `F` are `A` and `B` then and grow at the rates `kap` and
`nu`. -/
structure State (a e i lam A B n kap nu eta2 chi2 r L z vr vL vz : ℝ) : Prop where
  r_eq : r = radius a e i (eta2 / kap ^ 2) (chi2 / kap ^ 2) (chi2 / ((2 * nu + kap) / 3 * (2 * nu - kap))) A B
  L_eq : L = lam + equation e i (eta2 / kap ^ 2) (chi2 / ((2 * nu + kap) / 3 * (2 * nu - kap))) (kap / n) (nu / n) A B
  z_eq : z = height a e i (chi2 / (kap * ((2 * nu + kap) / 3))) (chi2 / (kap * (2 * nu - kap))) A B
  vr_eq : HasDerivAt (fun t => radius a e i (eta2 / kap ^ 2) (chi2 / kap ^ 2) (chi2 / ((2 * nu + kap) / 3 * (2 * nu - kap)))
    (A + kap * t) (B + nu * t)) vr 0
  vL_eq : HasDerivAt (fun t => n * secular e i (eta2 / kap ^ 2) (chi2 / kap ^ 2) (kap / n) * t +
    equation e i (eta2 / kap ^ 2) (chi2 / ((2 * nu + kap) / 3 * (2 * nu - kap))) (kap / n) (nu / n) (A + kap * t) (B + nu * t)) vL 0
  vz_eq : HasDerivAt (fun t => height a e i (chi2 / (kap * ((2 * nu + kap) / 3))) (chi2 / (kap * (2 * nu - kap)))
    (A + kap * t) (B + nu * t)) vz 0

end Verif.Orb.Spec
