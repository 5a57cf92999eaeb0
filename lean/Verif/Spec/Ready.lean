import Verif.Model.State

/-!
# Specification: an object whose arrays have (at least) `A` entries (C33)
-/
namespace Verif.Spec

/-- The members that the transforms read. -/
def xfFields : List Fld := [.rho, .F, .phi, .k, .B, .D, .rx, .ry, .rz]

/-- The arrays read by the transforms exist and have `A` entries; the perturbation has
its five coefficients. -/
structure Ready {R C : Type} (t : Tau R C) (A : Nat) : Prop where
  arr : ∀ f ∈ xfFields, ∃ l, t.arr f = some l ∧ A ≤ l.length
  tIn : ∃ l, t.carr .tIn = some l ∧ A ≤ l.length
  perturb : 5 ≤ t.perturb.length

/-- Evenly sampled radii `r0, r0 + δ, ...` with known spacing, and window widths `ω i` in
rows `lo .. hi-1` that are at least two samples wide and lie inside the data. -/
structure EvenData (t : Tau Dbl Cpx) (r0 δ : ℚ) (ω : Nat → ℚ) (lo hi : Nat) : Prop where
  pos : 0 < δ
  dx : t.dx = .fin δ
  size : t.arrSize < 2 ^ 64
  rho : ∃ l, t.arr .rho = some l ∧ l.length = t.arrSize ∧
    ∀ j, j < t.arrSize → l[j]? = some (.fin (r0 + δ * j))
  w : ∃ l, t.arr .w = some l ∧ ∀ i, lo ≤ i → i < hi → l[i]? = some (.fin (ω i))
  wide : ∀ i, lo ≤ i → i < hi → 2 * δ ≤ ω i
  left : ∀ i, lo ≤ i → i < hi → r0 ≤ (r0 + δ * i) - ω i / 2
  right : ∀ i, lo ≤ i → i < hi → (r0 + δ * i) + ω i / 2 ≤ r0 + δ * ((t.arrSize : ℚ) - 1)

end Verif.Spec
