import Verif.Model.State

/-!
# Specification: rows of sliced columns (C13, C14, C38, C39)
-/
namespace Verif.Spec

/-- Column `m` consists of rows `start .. start+len-1` of column `l`. -/
def SliceOf {α : Type} (start len : Nat) (l m : List α) : Prop :=
  start + len ≤ l.length ∧ m.length = len ∧ ∀ i, i < len → m[i]? = l[start + i]?

/-- The same for pointers (both non-NULL). -/
def SlicePtr {α : Type} (start len : Nat) (p q : Option (List α)) : Prop :=
  ∃ l m, p = some l ∧ q = some m ∧ SliceOf start len l m

/-- What Python sees of a column of a tau object: its first `arr_size` entries
(crssringoccs_c_tau_to_py_tau.c 27-31, 69-96). -/
def Exposes {α : Type} (t : Tau Dbl Cpx) (p : Option (List α)) (m : List α) : Prop :=
  ∃ l, p = some l ∧ t.arrSize ≤ l.length ∧ m = l.take t.arrSize

end Verif.Spec
