import Verif.Spec.Exact

/-!
# Specification: the polynomials of the Legendre and interpolated Newton methods (C25-C28)
-/
namespace Verif.Spec

/-- `kD * sum_{i < order} c_i x^(i+2)`: the phase of the sample with (scaled, signed)
displacement `x`. -/
noncomputable def legPoly (c : List ℝ) (order : Nat) (kD x : ℝ) : ℝ :=
  kD * ∑ i ∈ Finset.range order, val c i * x ^ (i + 2)

/-- The same polynomial without its two lowest terms and divided by `x²`. -/
noncomputable def legPolyCut (c : List ℝ) (order : Nat) (kD x : ℝ) : ℝ :=
  kD * ∑ i ∈ Finset.Ico 2 order, val c i * x ^ i

/-- The Legendre functions for polynomials of even degree. -/
def legEven : Leg → Bool
  | .even | .evenNorm => true
  | .odd | .oddNorm => false

/-- A quartic. -/
def quartic (a : ℝ × ℝ × ℝ × ℝ × ℝ) (x : ℝ) : ℝ :=
  a.1 + a.2.1 * x + a.2.2.1 * x ^ 2 + a.2.2.2.1 * x ^ 3 + a.2.2.2.2 * x ^ 4

/-- Sum of the absolute values of the sampled phases. -/
def absSum (pairs : List (ℝ × ℝ)) : ℝ := (pairs.map fun p => |p.1| + |p.2|).sum

end Verif.Spec
