import Mathlib.Algebra.Order.Ring.Rat

/-!
# Specification: what the ring plane hides and where
-/
namespace Verif.Geo.Spec

/-- The straight line between the heights `a` and `b` meets the ring plane. -/
def MeetsPlane (a b : ℚ) : Prop := ∃ s : ℚ, 0 ≤ s ∧ s ≤ 1 ∧ (1 - s) * a + s * b = 0

/-- Larger bodies hide more. -/
def Grows (occult : ℚ × ℚ × ℚ → ℚ → Bool) : Prop :=
  ∀ r r' : ℚ × ℚ × ℚ, r.1 ≤ r'.1 → r.2.1 ≤ r'.2.1 → r.2.2 ≤ r'.2.2 → ∀ t, occult r t = true → occult r' t = true

end Verif.Geo.Spec
