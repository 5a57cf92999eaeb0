import Verif.Model.Geo

/-!
# What the arrays of the geometry are meant to be
-/
namespace Verif.Geo.Spec

/-- The radius falls strictly up to the time `m` and grows strictly from there on: ingress, then egress. -/
structure Chord (rho : List ℚ) (m : Nat) : Prop where
  inside : 1 ≤ m ∧ m + 1 < rho.length
  falls : ∀ i, i < m → rho.getD (i + 1) 0 < rho.getD i 0
  grows : ∀ i, m ≤ i → i + 1 < rho.length → rho.getD i 0 < rho.getD (i + 1) 0

/-- Every radius is smaller than the one before. -/
def Falling (l : List ℚ) : Prop := l.Pairwise (· > ·)

/-- Every radius is greater than the one before. -/
def Growing (l : List ℚ) : Prop := l.Pairwise (· < ·)

/-- `k` separates ingress from egress (in either order). -/
def Separates (rho : List ℚ) (k : Nat) : Prop :=
  0 < k ∧ k < rho.length ∧ ((Falling (rho.take k) ∧ Growing (rho.drop k)) ∨ (Growing (rho.take k) ∧ Falling (rho.drop k)))

end Verif.Geo.Spec

namespace Verif.Geo.Spec

/-- The rows of an array with the given indices. -/
def rows (idx : List Nat) (l : List ℚ) : List ℚ := idx.map fun i => l.getD i 0

end Verif.Geo.Spec
