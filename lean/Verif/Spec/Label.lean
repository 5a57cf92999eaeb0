import Mathlib.Algebra.Order.Field.Rat
import Mathlib.Tactic.NormNum

/-!
# Times of a day

Independent of the model.
-/
namespace Verif.Pds.Spec

/-- `h:m:s` is the time of the day at `x` seconds after midnight, without the fraction of a second. -/
def TimeOfDay (x : ℚ) (h m s : Nat) : Prop := h < 24 ∧ m < 60 ∧ s < 60 ∧ ((3600 * h + 60 * m + s : Nat) : ℚ) ≤ x ∧ x < ((3600 * h + 60 * m + s : Nat) : ℚ) + 1

/-- Two digits. -/
def two (n : Nat) : List Char := [Char.ofNat (48 + n / 10), Char.ofNat (48 + n % 10)]

/-- The text of a time. -/
def timeText (year doy : List Char) (h m s : Nat) : List Char := year ++ '-' :: doy ++ 'T' :: two h ++ ':' :: two m ++ ':' :: two s

end Verif.Pds.Spec
