import Mathlib.Analysis.SpecialFunctions.Exp
import Mathlib.Analysis.SpecialFunctions.Trigonometric.Basic
import Mathlib.Analysis.SpecialFunctions.Pow.NNReal

/-!
# The profiles of a ring feature: rss_ringoccs/tools/ring_fit.py

Over the real numbers; `none` is NaN.
-/
namespace Verif.Fit

/-- rss_ringoccs/tools/ring_fit.py 341-342. -/
noncomputable def logistic (x x0 L k c : ℝ) : ℝ := L / (1 + Real.exp (-k * (x - x0))) + c

/-- `np.sqrt`: NaN for negative numbers. -/
noncomputable def npSqrt (x : ℝ) : Option ℝ := if x < 0 then none else some (Real.sqrt x)

/-- `a / b` of floating-point numbers; `none` for a zero divisor (NaN or infinity). -/
noncomputable def npDiv (a b : ℝ) : Option ℝ := if b = 0 then none else some (a / b)

/-- rss_ringoccs/tools/ring_fit.py 345-347. -/
noncomputable def gauss (x x0 L k c : ℝ) : Option ℝ :=
  (npSqrt (k / Real.pi)).map fun s => L * s * Real.exp (-k * (x - x0) ^ 2) + c

/-- rss_ringoccs/tools/ring_fit.py 350-352. -/
noncomputable def lorentz (x x0 L k c : ℝ) : Option ℝ :=
  (npSqrt k).bind fun s => (npDiv (L * s) (Real.pi * (x - x0) ^ 2 + k)).map (· + c)

end Verif.Fit
