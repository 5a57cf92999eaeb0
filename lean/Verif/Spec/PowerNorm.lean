import Mathlib.Algebra.Order.Ring.Rat
import Mathlib.Tactic.Linarith

/-!
# What the power normalisation is meant to do
-/
namespace Verif.Cal.Spec

/-- At most half of the values are less, at most half are greater. -/
def IsMedian (l : List ℚ) (m : ℚ) : Prop :=
  l ≠ [] ∧ 2 * l.countP (fun x => x < m) ≤ l.length ∧ 2 * l.countP (fun x => m < x) ≤ l.length

/-- The powers at the times from `a` to `b`. -/
def during (t p : List ℚ) (a b : ℚ) : List ℚ := ((t.zip p).filter fun x => a ≤ x.1 ∧ x.1 ≤ b).map Prod.snd

/-- `x` is the greatest power from `a` to `b`. -/
def Peak (t p : List ℚ) (a b x : ℚ) : Prop := x ∈ during t p a b ∧ ∀ y ∈ during t p a b, y ≤ x

/-- The sample with time `s` and power `x` is a sample of free space: it lies in one of the regions, the median of the powers (in
units of `top`) in that region is between 0.5 and 1.25, and its power is near the median. -/
def FreeSample (t p : List ℚ) (regions : List (ℚ × ℚ)) (top s x m : ℚ) : Prop :=
  ∃ g ∈ regions, IsMedian ((during t p g.1 g.2).map (· / top)) m ∧ 1 / 2 ≤ m ∧ m ≤ 5 / 4 ∧ g.1 ≤ s ∧ s ≤ g.2 ∧ |x / top - m| < 1 / 10

end Verif.Cal.Spec
