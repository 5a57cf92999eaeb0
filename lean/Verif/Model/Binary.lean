import Verif.Model.Rsr

/-!
# Rounding to 53 bits
-/
namespace Verif.Rsr

/-- The exponent of a positive fraction: `2 ^ e ≤ n / d < 2 ^ (e + 1)`. -/
def expo (n d : Nat) : ℤ :=
  let l : ℤ := (Nat.log2 n : ℤ) - (Nat.log2 d : ℤ)
  if (2 : ℚ) ^ l ≤ (n : ℚ) / d then l else l - 1

/-- Rounding to the nearest number of 53 bits, ties to even (IEEE 754 binary64 without overflow and underflow). -/
def rnd53 (x : ℚ) : ℚ :=
  if x = 0 then 0
  else
    let u : ℚ := 2 ^ (expo x.num.natAbs x.den - 52)
    (pyRound (x / u) : ℚ) * u

end Verif.Rsr
