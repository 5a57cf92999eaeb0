import Verif.Proofs.Names
import Verif.Base.Exact
import Verif.Model.Create

/-!
# C17: window names
-/
namespace Verif
open Spec

/-- **C17**, acceptance: a string that is a documented name up to case and white
space selects exactly that window and its normalised equivalent width; nothing
else changes, and the temporary copy of the string is freed. -/
theorem C17_window_accept (L : Lib) (t : TauD) (h : t.err = none) (s : List Char)
    (p : String × Win) (hp : p ∈ windowNames) (hm : Matches s p.1.toList) :
    setWindowType L (some s) true t =
      ({ t with window := p.2, normeq := L.normEq p.2 }, [.alloc, .free]) := by
  rw [matches_iff] at hm
  simp only [windowNames, List.mem_cons, List.not_mem_nil, or_false] at hp
  rcases hp with rfl | rfl | rfl | rfl | rfl | rfl | rfl | rfl <;>
    simp [setWindowType, h, hm]

/-- **C17**, rejection: every other string sets an error; apart from the error
only `normeq` changes (it is set to -1), and the copy is freed. -/
theorem C17_window_reject (L : Lib) (t : TauD) (h : t.err = none) (s : List Char)
    (hm : ∀ p ∈ windowNames, ¬ Matches s p.1.toList) :
    ∃ r, setWindowType L (some s) true t = (r, [.alloc, .free]) ∧ r.err ≠ none ∧
      { r with err := t.err, normeq := t.normeq } = t := by
  simp only [windowNames, List.forall_mem_cons, matches_iff, List.not_mem_nil, false_imp_iff,
    implies_true, and_true] at hm
  obtain ⟨h1, h2, h3, h4, h5, h6, h7, h8⟩ := hm
  refine ⟨_, by simp only [setWindowType, h, Option.isSome_none, Bool.false_eq_true, if_false,
    Bool.not_true, h1, h2, h3, h4, h5, h6, h7, h8]; rfl, by simp, ?_⟩
  simp only [Tau.fail]

/-- **C17**, NULL string or failed duplication: an error, nothing else. -/
theorem C17_window_null (L : Lib) (t : TauD) (h : t.err = none) (s : Option (List Char))
    (dup : Bool) (hs : s = none ∨ dup = false) :
    ∃ l, setWindowType L s dup t = (t.fail .setWindowType l, []) := by
  cases s with
  | none => exact ⟨19, by simp [setWindowType, h]⟩
  | some s =>
    rcases hs with h' | h'
    · cases h'
    · exact ⟨32, by simp [setWindowType, h, h']⟩

example : Matches " KbMd 20\n".toList "kbmd20".toList := by rw [matches_iff]; decide
example : ∀ p ∈ windowNames, ¬ Matches "kbmd2".toList p.1.toList := by
  simp only [matches_iff]; decide

end Verif
