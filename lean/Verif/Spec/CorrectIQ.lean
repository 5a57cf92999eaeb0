import Mathlib.Analysis.SpecialFunctions.Complex.Circle

/-!
# Signals and splines

Written without use of the model.
-/
namespace Verif.Cal.Spec

/-- A cubic spline through at least four points of a polynomial of degree at most three is the polynomial. -/
def CubicExact (spl : List ℝ → List ℝ → ℝ → ℝ) : Prop :=
  ∀ (xs : List ℝ) (a b c d : ℝ), xs.Pairwise (· < ·) → 4 ≤ xs.length →
    ∀ t, spl xs (xs.map fun x => a + b * x + c * x ^ 2 + d * x ^ 3) t = a + b * t + c * t ^ 2 + d * t ^ 3

/-- A signal of amplitude `A` with the phase `φ`, in cycles. -/
noncomputable def tone (A : ℂ) (φ : ℝ) : ℂ := A * Complex.exp (2 * Real.pi * φ * Complex.I)

end Verif.Cal.Spec
