import Mathlib.Algebra.Order.Ring.Rat
import Mathlib.Algebra.BigOperators.Group.Finset.Basic
import Mathlib.Data.Int.Interval
import Mathlib.Tactic.Linarith

/-!
# What resampling is meant to do
-/
namespace Verif.Cal.Spec

/-- Radii in equal steps that lie in a range and fill it up to half a kilometre at its beginning and one and a half steps at
its end. -/
structure Sampled (lo hi step : ℚ) (l : List ℚ) : Prop where
  some_ : l ≠ []
  steps : ∀ i, i + 1 < l.length → l.getD (i + 1) 0 = l.getD i 0 + step
  inside : ∀ r ∈ l, lo ≤ r ∧ r < hi
  start : ∀ r, l.head? = some r → r ≤ lo + max step (1 / 2)
  stop : ∀ r, l.getLast? = some r → hi ≤ r + 3 / 2 * step

/-- `x` is the least multiple of `1/40` that is at least `t`. -/
def LeastStep (t x : ℚ) : Prop := (∃ k : ℤ, x = k / 40) ∧ t ≤ x ∧ ∀ k : ℤ, t ≤ k / 40 → x ≤ k / 40

/-- A filter of `20 q + 1` values that is even and has sum 1. -/
structure IsFilter (q : ℕ) (h : ℤ → ℚ) : Prop where
  even : ∀ k, h (-k) = h k
  total : ∑ k ∈ Finset.Icc (-(10 * q : ℤ)) (10 * q), h k = 1

end Verif.Cal.Spec
