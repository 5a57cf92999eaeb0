import Mathlib.Algebra.Order.Ring.Rat

/-!
# What the rows of a diffraction-limited profile are meant to be
-/
namespace Verif.Cal.Spec

/-- `x` is the value of the column `l` at the place `w` between rows `i` and `i + 1`. -/
def At (l : List ℚ) (i : Nat) (w x : ℚ) : Prop := x = (1 - w) * l.getD i 0 + w * l.getD (i + 1) 0

end Verif.Cal.Spec
