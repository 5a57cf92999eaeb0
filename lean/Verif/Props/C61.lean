import Verif.Model.Parse
import Verif.Base.Exact
import Verif.Props.C19

/-!
# C61: the temporary copies of the option strings

Every string setter copies its argument in order to normalise it.  The copy should be released again
before the function returns, on every path, and a failed copy should be an ordinary error.
-/
namespace Verif

/-- Specification: the number of copies still held after the events; `none` when something is released that
is not held. -/
def heldCopies (l : List MemEv) : Option Nat :=
  l.foldl (fun o e => match o, e with
    | some n, .alloc => some (n + 1)
    | some (n + 1), .free => some n
    | _, _ => none) (some 0)

/-- **C61** (window) For every argument (NULL included), every state of the object and whether or not the copy
succeeds, no copy is left and nothing is freed that was not allocated; a failed copy sets an error. -/
theorem C61_window (L : Lib) (s : Option (List Char)) (dup : Bool) (t : TauD) :
    heldCopies (setWindowType L s dup t).2 = some 0 ∧
    (t.err = none → s ≠ none → dup = false → (setWindowType L s dup t).1.err ≠ none) := by
  unfold setWindowType
  cases h : t.err <;> cases s <;> cases dup <;> simp [heldCopies, Tau.fail]

/-- **C61** (method) The same for the reconstruction method, including the jumps to `FINISH`. -/
theorem C61_psi (f : List Char → Fin 256) (s : Option (List Char)) (dup : Bool) (t : TauD) :
    heldCopies (setPsiType f s dup t).2 = some 0 ∧
    (t.err = none → s ≠ none → dup = false → (setPsiType f s dup t).1.err ≠ none) := by
  cases h : t.err with
  | some e =>
    have : setPsiType f s dup t = (t, []) := by unfold setPsiType; rw [h]; rfl
    rw [this]; exact ⟨rfl, fun k => (by cases k)⟩
  | none =>
    cases s with
    | none =>
      have : setPsiType f none dup t = (t.fail .setPsiType 40, []) := by unfold setPsiType; rw [h]; rfl
      rw [this]; exact ⟨rfl, fun _ k => absurd rfl k⟩
    | some s =>
      cases dup with
      | true => exact ⟨by unfold setPsiType; rw [h]; rfl, fun _ _ k => (by cases k)⟩
      | false =>
        have : setPsiType f (some s) false t = (t.fail .setPsiType 57, []) := by unfold setPsiType; rw [h]; rfl
        rw [this]; exact ⟨rfl, fun _ _ _ => (by simp [Tau.fail])⟩

/-- **C61** (range) Without an argument, or after an earlier error, nothing is copied.  Partial: false for
every other call, see `C61_range_false`. -/
theorem C61_range_partial (s : Option (List Char)) (dup : Bool) (t : TauD) (h : t.err ≠ none ∨ s = none) :
    ∃ r ev, setRange s dup t = .ok (r, ev) ∧ heldCopies ev = some 0 := by
  unfold setRange
  by_cases k : t.err.isSome = true
  · rw [if_pos k]; exact ⟨_, _, rfl, rfl⟩
  · rw [if_neg k]
    rcases h with h | rfl
    · exact absurd (Option.isSome_iff_ne_none.2 h) k
    · exact ⟨_, _, rfl, rfl⟩

/-- **C61** (range; the claim is false) Every string, documented or not, leaves one copy behind, and a failed
copy is undefined behaviour. -/
theorem C61_range_false (s : List Char) (t : TauD) (h : t.err = none) :
    (∃ r ev, setRange (some s) true t = .ok (r, ev) ∧ heldCopies ev = some 1) ∧
    setRange (some s) false t = .ub .stringNull := by
  unfold setRange
  simp only [h, Option.isSome_none, Bool.false_eq_true, if_false, Bool.not_true, Bool.not_false, if_true]
  exact ⟨⟨_, _, rfl, rfl⟩, trivial⟩

/-- Calls of the range setter one after the other, as long as there is no undefined behaviour. -/
def setRanges : List (List Char) → TauD → Res (TauD × List MemEv)
  | [], t => .ok (t, [])
  | s :: ss, t => do
    let (t, e) ← setRange (some s) true t
    let (t, e') ← setRanges ss t
    .ok (t, e ++ e')

/-- **C61** (range; the leak grows) `n` documented names in a row leave `n` copies. -/
theorem C61_range_grows_false (ss : List (List Char))
    (hs : ∀ s ∈ ss, ∃ p ∈ Spec.rangeNames, Spec.Matches s p.1.toList) (t : TauD) (h : t.err = none) :
    ∃ r ev, setRanges ss t = .ok (r, ev) ∧ heldCopies ev = some ss.length := by
  have gen : ∃ r, setRanges ss t = .ok (r, List.replicate ss.length .alloc) := by
    induction ss generalizing t with
    | nil => exact ⟨_, rfl⟩
    | cons s ss ih =>
      obtain ⟨p, hp, hm⟩ := hs s List.mem_cons_self
      have e := C19_range_accept t h s p hp hm
      obtain ⟨r, e'⟩ := ih (fun s hs' => hs s (List.mem_cons_of_mem _ hs'))
        { t with range0 := .fin p.2.1, range1 := .fin p.2.2 } h
      refine ⟨r, ?_⟩
      unfold setRanges
      simp only [e, Res.ok_bind, e']
      rfl
  obtain ⟨r, e⟩ := gen
  refine ⟨r, _, e, ?_⟩
  have fold : ∀ n k, (List.replicate n MemEv.alloc).foldl (fun o e => match o, e with
      | some n, .alloc => some (n + 1)
      | some (n + 1), .free => some n
      | _, _ => none) (some k) = some (k + n) := by
    intro n
    induction n with
    | zero => intro k; rfl
    | succ n ih => intro k; rw [List.replicate_succ, List.foldl_cons, ih]; congr 1; omega
  have := fold ss.length 0
  rw [Nat.zero_add] at this
  exact this

/-- Two different spellings of the C ring ripples. -/
example (t : TauD) (h : t.err = none) :
    ∃ r ev, setRanges [" cringripples".toList, "CRingRipples".toList] t = .ok (r, ev) ∧
      heldCopies ev = some 2 :=
  C61_range_grows_false _ (by
    intro s hs
    refine ⟨("cringripples", 77690, 77760), by decide, ?_⟩
    rw [matches_iff]
    simp only [List.mem_cons, List.not_mem_nil, or_false] at hs
    rcases hs with rfl | rfl <;> decide +kernel) t h

end Verif
