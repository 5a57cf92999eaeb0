import Mathlib.Algebra.Order.Ring.Rat
import Mathlib.Algebra.BigOperators.Group.List.Basic
import Mathlib.Algebra.BigOperators.Ring.Finset

/-!
# What the fit of the power is meant to be
-/
namespace Verif.Cal.Spec

/-- Value of the polynomial with coefficients `c`, the highest power first. -/
def poly (c : List ℚ) (x : ℚ) : ℚ := ∑ i ∈ Finset.range c.length, c.getD i 0 * x ^ (c.length - 1 - i)

/-- Sum of the squared distances of the marked points from the polynomial. -/
def misfit (c : List ℚ) (mask : List Bool) (xs ys : List ℚ) : ℚ :=
  ∑ i ∈ Finset.range xs.length, if mask.getD i false then (poly c (xs.getD i 0) - ys.getD i 0) ^ 2 else 0

/-- `pf` finds polynomials of the order that is asked for with the least sum of squares. -/
def LeastSquares (pf : Nat → List ℚ → List ℚ → List ℚ) : Prop :=
  ∀ n xs ys, xs.length = ys.length → (pf n xs ys).length = n + 1 ∧
    ∀ c : List ℚ, c.length = n + 1 →
      (List.zipWith (fun x y => (poly (pf n xs ys) x - y) ^ 2) xs ys).sum ≤ (List.zipWith (fun x y => (poly c x - y) ^ 2) xs ys).sum

end Verif.Cal.Spec
