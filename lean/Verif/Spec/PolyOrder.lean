import Verif.Spec.PowerFit

/-!
# What the order of the polynomial is meant to be
-/
namespace Verif.Cal.Spec

/-- Sum of the squared distances of the points from the polynomial. -/
def squares (c xs ys : List ℚ) : ℚ := (List.zipWith (fun x y => (poly c x - y) ^ 2) xs ys).sum

/-- `s` is the least sum of squares for the order `k`. -/
def IsLeast (k : Nat) (xs ys : List ℚ) (s : ℚ) : Prop :=
  (∃ c : List ℚ, c.length = k + 1 ∧ squares c xs ys = s) ∧ ∀ c : List ℚ, c.length = k + 1 → s ≤ squares c xs ys

/-- The F test finds the order `k + 1` better than the order `k`: the sum of squares falls by more than the mean square per degree
of freedom that remains. -/
def Better (k : Nat) (xs ys : List ℚ) : Prop :=
  ∃ s1 s2, IsLeast k xs ys s1 ∧ IsLeast (k + 1) xs ys s2 ∧ k + 2 < xs.length ∧ s2 / (xs.length - (k + 2)) < s1 - s2

end Verif.Cal.Spec
