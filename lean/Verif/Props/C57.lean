import Verif.Model.Py
import Verif.Props.C03
import Verif.Props.C17
import Verif.Props.C18
import Verif.Props.C19

/-!
# C57 The range argument, C58 the perturbation argument, C59 the arrays of the DLP argument
-/
namespace Verif

namespace Spec

/-- A Python number and its value. -/
inductive PyValue (P : PyNum) : PyObj → Dbl → Prop
  | float (x : Dbl) : PyValue P (.float x) x
  | int (z : Int) (x : Dbl) : P.ofInt z = some x → PyValue P (.int z) x

/-- The objects that are documented for `rng`, with the radii they stand for. (A list may be an instance of a subclass;
what counts is what it iterates over.) -/
inductive RangeArg (P : PyNum) : PyObj → Dbl → Dbl → Prop
  | bytes (s : List Char) (p : String × ℚ × ℚ) : p ∈ rangeNames → Matches s p.1.toList →
      RangeArg P (.bytes s) (.fin p.2.1) (.fin p.2.2)
  | str (s : List Char) (p : String × ℚ × ℚ) : p ∈ rangeNames → Matches s p.1.toList →
      RangeArg P (.str (some s)) (.fin p.2.1) (.fin p.2.2)
  | pair (x y : PyObj) (r : List PyObj) (a b : Dbl) : PyValue P x a → PyValue P y b →
      RangeArg P (.list 2 (some (x :: y :: r))) a b

/-- The documented values of `perturb`. -/
inductive PerturbArg (P : PyNum) : Option PyObj → List Dbl → Prop
  | omitted : PerturbArg P none (List.replicate 5 (.fin 0))
  | list (x0 x1 x2 x3 x4 : PyObj) (r : List PyObj) (a0 a1 a2 a3 a4 : Dbl) : PyValue P x0 a0 → PyValue P x1 a1 →
      PyValue P x2 a2 → PyValue P x3 a3 → PyValue P x4 a4 →
      PerturbArg P (some (.list 5 (some (x0 :: x1 :: x2 :: x3 :: x4 :: r)))) [a0, a1, a2, a3, a4]

/-- Lists that iterate over what they contain (every list that is not an instance of a subclass). -/
def PlainObj : PyObj → Prop
  | .list n it => ∃ l, it = some l ∧ l.length = n
  | _ => True

/-- Integers that fit into a double. -/
def IntsFit (P : PyNum) : PyObj → Prop
  | .list _ (some l) => ∀ z, .int z ∈ l → P.ofInt z ≠ none
  | _ => True

end Spec
open Spec

theorem pyNumber_cases (P : PyNum) (o : PyObj) :
    (∃ x, PyValue P o x ∧ pyNumber P o = some (x, false)) ∨
    (∃ z, o = .int z ∧ P.ofInt z = none ∧ pyNumber P o = some (.fin (-1), true)) ∨
    (pyNumber P o = none ∧ ∀ x, ¬ PyValue P o x) := by
  cases o with
  | int z =>
    cases h : P.ofInt z with
    | some x => exact .inl ⟨x, .int z x h, by simp [pyNumber, h]⟩
    | none => exact .inr (.inl ⟨z, rfl, h, by simp [pyNumber, h]⟩)
  | float x => exact .inl ⟨x, .float x, rfl⟩
  | bytes s => exact .inr (.inr ⟨rfl, fun x h => by cases h⟩)
  | str s => exact .inr (.inr ⟨rfl, fun x h => by cases h⟩)
  | list n it => exact .inr (.inr ⟨rfl, fun x h => by cases h⟩)
  | other => exact .inr (.inr ⟨rfl, fun x h => by cases h⟩)

theorem pyValue_number {P : PyNum} {o : PyObj} {x : Dbl} (h : PyValue P o x) : pyNumber P o = some (x, false) := by
  cases h with
  | float => rfl
  | int z _ h => simp [pyNumber, h]

theorem pyValue_unique {P : PyNum} {o : PyObj} {x y : Dbl} (h : PyValue P o x) (h' : PyValue P o y) : x = y := by
  have := (pyValue_number h).symm.trans (pyValue_number h')
  simpa using this

/-- What a call of `Set_Range_From_String` does to a string. -/
theorem setRange_cases (t : TauD) (h : t.err = none) (s : List Char) :
    (∃ p ∈ rangeNames, Matches s p.1.toList ∧ ∃ m, setRange (some s) true t =
      .ok ({ t with range0 := .fin p.2.1, range1 := .fin p.2.2 }, m)) ∨
    ((∀ p ∈ rangeNames, ¬ Matches s p.1.toList) ∧ ∃ r m, setRange (some s) true t = .ok (r, m) ∧ r.err ≠ none ∧
      { r with err := t.err, range0 := t.range0, range1 := t.range1 } = t) := by
  by_cases hp : ∃ p ∈ rangeNames, Matches s p.1.toList
  · obtain ⟨p, hp, hm⟩ := hp
    exact .inl ⟨p, hp, hm, _, C19_range_accept t h s p hp hm⟩
  · have hn : ∀ p ∈ rangeNames, ¬ Matches s p.1.toList := fun p h1 h2 => hp ⟨p, h1, h2⟩
    obtain ⟨r, e, h1, h2⟩ := C19_range_reject t h s hn
    exact .inr ⟨hn, r, _, e, h1, h2⟩

/-! ### C57 -/

/-- **C57**, for plain objects and integers that fit: a documented object sets the range to exactly the radii it stands for
and changes nothing else; every other object sets an error and changes at most the range. Never undefined, never a
Python exception behind the back of the caller. -/
theorem C57_range_partial (P : PyNum) (o : PyObj) (t : TauD) (h : t.err = none) (hp : PlainObj o) (hi : IntsFit P o) :
    (∃ a b, RangeArg P o a b ∧ getPyRange P true (some o) t = .ok ({ t with range0 := a, range1 := b }, false)) ∨
    ((¬ ∃ a b, RangeArg P o a b) ∧ ∃ r e, getPyRange P true (some o) t = .ok (r, e) ∧ r.err ≠ none ∧
      { r with err := t.err, range0 := t.range0, range1 := t.range1 } = t) := by
  have h' : t.err.isSome = false := by rw [h]; rfl
  cases o with
  | bytes s =>
    rcases setRange_cases t h s with ⟨p, hp, hm, m, e⟩ | ⟨hn, r, m, e, h1, h2⟩
    · exact .inl ⟨_, _, .bytes s p hp hm, by simp [getPyRange, h', e, Res.ok_bind]⟩
    · refine .inr ⟨?_, r, false, by simp [getPyRange, h', e, Res.ok_bind], h1, h2⟩
      rintro ⟨a, b, hr⟩
      cases hr with
      | bytes _ p hp hm => exact hn p hp hm
  | str s =>
    cases s with
    | none =>
      refine .inr ⟨?_, t.fail .setRange 36, true, by simp [getPyRange, h', setRange, Res.ok_bind], by simp, rfl⟩
      rintro ⟨a, b, hr⟩
      cases hr
    | some s =>
      rcases setRange_cases t h s with ⟨p, hp, hm, m, e⟩ | ⟨hn, r, m, e, h1, h2⟩
      · exact .inl ⟨_, _, .str s p hp hm, by simp [getPyRange, h', e, Res.ok_bind]⟩
      · refine .inr ⟨?_, r, false, by simp [getPyRange, h', e, Res.ok_bind], h1, h2⟩
        rintro ⟨a, b, hr⟩
        cases hr with
        | str _ p hp hm => exact hn p hp hm
  | int z => exact .inr ⟨(by rintro ⟨a, b, hr⟩; cases hr), t.fail .py 111, false, by simp [getPyRange, h'], by simp, rfl⟩
  | float z => exact .inr ⟨(by rintro ⟨a, b, hr⟩; cases hr), t.fail .py 111, false, by simp [getPyRange, h'], by simp, rfl⟩
  | other => exact .inr ⟨(by rintro ⟨a, b, hr⟩; cases hr), t.fail .py 111, false, by simp [getPyRange, h'], by simp, rfl⟩
  | list n it =>
    obtain ⟨l, rfl, hl⟩ := hp
    by_cases hn : n = 2
    · subst hn
      match l, hl with
      | [x, y], _ =>
        rcases pyNumber_cases P x with ⟨a, ha, ea⟩ | ⟨z, rfl, hz, -⟩ | ⟨ea, ha⟩
        · rcases pyNumber_cases P y with ⟨b, hb, eb⟩ | ⟨z, rfl, hz, -⟩ | ⟨eb, hb⟩
          · exact .inl ⟨a, b, .pair x y [] a b ha hb, by simp [getPyRange, h', pyNext, Res.ok_bind, ea, eb]⟩
          · exact absurd hz (hi z (by simp))
          · refine .inr ⟨?_, ({ t with range0 := a }.fail .py 96), false,
              by simp [getPyRange, h', pyNext, Res.ok_bind, ea, eb], by simp, rfl⟩
            rintro ⟨_, b, hr⟩
            cases hr with
            | pair _ _ _ _ _ _ h2 => exact hb b h2
        · exact absurd hz (hi z (by simp))
        · refine .inr ⟨?_, (t.fail .py 96), false, by simp [getPyRange, h', pyNext, Res.ok_bind, ea], by simp, rfl⟩
          rintro ⟨a, b, hr⟩
          cases hr with
          | pair _ _ _ _ _ h1 _ => exact ha a h1
    · refine .inr ⟨?_, t.fail .py 73, false, by simp [getPyRange, h', hn], by simp, rfl⟩
      rintro ⟨a, b, hr⟩
      cases hr
      exact hn rfl

/-- An error that is already there is kept, and nothing is looked at. -/
theorem C57_guard (P : PyNum) (dup : Bool) (r : Option PyObj) (t : TauD) (h : t.err ≠ none) :
    getPyRange P dup r t = .ok (t, false) ∧ getPyPerturb P r t = .ok (t, false) := by
  have : t.err.isSome = true := Option.isSome_iff_ne_none.2 h
  exact ⟨by simp [getPyRange, this], by simp [getPyPerturb, this]⟩

/-- The negation of **C57** for integers that do not fit into a double: such an element is stored as -1 without any
error in the tau object (all lists of such an integer and a number). -/
theorem C57_overflow_false (P : PyNum) (z : Int) (hz : P.ofInt z = none) (y : PyObj) (b : Dbl) (hy : PyValue P y b)
    (dup : Bool) (t : TauD) (h : t.err = none) :
    getPyRange P dup (some (.list 2 (some [.int z, y]))) t = .ok ({ t with range0 := .fin (-1), range1 := b }, true) := by
  have e := pyValue_number hy
  have h' : t.err.isSome = false := by rw [h]; rfl
  have e1 : pyNumber P (.int z) = some (.fin (-1), true) := by simp [pyNumber, hz]
  simp [getPyRange, h', pyNext, Res.ok_bind, e, e1]

/-- The negation of **C57** for lists of a subclass: one that iterates over fewer than two elements, or refuses to be
iterated over, makes the code dereference NULL. -/
theorem C57_subclass_false (P : PyNum) (dup : Bool) (t : TauD) (h : t.err = none) :
    getPyRange P dup (some (.list 2 (some []))) t = .ub .nullDeref ∧
    getPyRange P dup (some (.list 2 none)) t = .ub .nullDeref ∧
    ∀ x a, PyValue P x a → getPyRange P dup (some (.list 2 (some [x]))) t = .ub .nullDeref := by
  have h' : t.err.isSome = false := by rw [h]; rfl
  refine ⟨by simp [getPyRange, h', pyNext], by simp [getPyRange, h', pyNext], fun x a hx => ?_⟩
  simp [getPyRange, h', pyNext, Res.ok_bind, pyValue_number hx]

/-! ### C58 -/

theorem perturb_set (t : TauD) (hl : t.perturb.length = 5) (a0 a1 a2 a3 a4 : Dbl) :
    ((((t.perturb.set 0 a0).set 1 a1).set 2 a2).set 3 a3).set 4 a4 = [a0, a1, a2, a3, a4] := by
  match h : t.perturb, hl with
  | [b0, b1, b2, b3, b4], _ => rfl

/-- One pass of the loop. -/
theorem perturbLoop_step (P : PyNum) (l : List PyObj) (k n : Nat) (t : TauD) (e : Bool) (x : PyObj) (hx : l[n]? = some x) :
    perturbLoop P (some l) (k + 1) n (t, e) = match pyNumber P x with
      | none => .ok (t.fail .py 84, e)
      | some (a, e') => perturbLoop P (some l) k (n + 1) ({ t with perturb := t.perturb.set n a }, e || e') := by
  rw [perturbLoop, pyNext]
  simp only [hx, Res.ok_bind]
  cases pyNumber P x <;> rfl

/-- Either all elements are numbers, or an error is set. -/
theorem perturbLoop_cases (P : PyNum) (l : List PyObj) : ∀ (k n : Nat) (t : TauD), n + k ≤ l.length →
    (∀ z, PyObj.int z ∈ l → P.ofInt z ≠ none) → t.err = none →
    (∃ as : List Dbl, as.length = k ∧ (∀ i, i < k → ∃ x a, l[n + i]? = some x ∧ as[i]? = some a ∧ PyValue P x a) ∧
      perturbLoop P (some l) k n (t, false) =
        .ok ({ t with perturb := (List.range k).foldl (fun p i => p.set (n + i) (as.getD i .nan)) t.perturb }, false)) ∨
    ((∃ i x, i < k ∧ l[n + i]? = some x ∧ ∀ a, ¬ PyValue P x a) ∧ ∃ r, perturbLoop P (some l) k n (t, false) = .ok (r, false) ∧
      r.err ≠ none ∧ { r with err := t.err, perturb := t.perturb } = t)
  | 0, n, t, _, _, _ => .inl ⟨[], rfl, by intro i hi; omega, rfl⟩
  | k + 1, n, t, hl, hi, h => by
    have hn : n < l.length := by omega
    have hx : l[n]? = some l[n] := List.getElem?_eq_getElem hn
    rw [perturbLoop_step P l k n t false _ hx]
    rcases pyNumber_cases P l[n] with ⟨a, ha, ea⟩ | ⟨z, hz, hz', -⟩ | ⟨ea, ha⟩
    · simp only [ea, Bool.or_false]
      rcases perturbLoop_cases P l k (n + 1) { t with perturb := t.perturb.set n a } (by omega) hi h with
        ⟨as, h1, h2, e⟩ | ⟨⟨i, x, h1, h2, h3⟩, r, e, h4, h5⟩
      · refine .inl ⟨a :: as, by simp [h1], ?_, ?_⟩
        · intro i hik
          cases i with
          | zero => exact ⟨_, a, hx, rfl, ha⟩
          | succ i =>
            obtain ⟨x, b, q1, q2, q3⟩ := h2 i (by omega)
            exact ⟨x, b, by rw [show n + (i + 1) = n + 1 + i by omega]; exact q1, by simpa using q2, q3⟩
        · rw [e, List.range_succ_eq_map, List.foldl_cons, List.foldl_map]
          simp only [Nat.add_zero, List.getD_cons_zero, List.getD_cons_succ, Nat.succ_eq_add_one]
          have : ∀ i, n + 1 + i = n + (i + 1) := fun i => by omega
          simp only [this]
      · refine .inr ⟨⟨i + 1, x, by omega, by rw [show n + (i + 1) = n + 1 + i by omega]; exact h2, h3⟩, r, e, h4, ?_⟩
        exact congrArg (fun q : TauD => { q with perturb := t.perturb }) h5
    · exact absurd hz' (hi z (by rw [← hz]; exact List.getElem_mem hn))
    · simp only [ea]
      exact .inr ⟨⟨0, _, by omega, hx, ha⟩, _, rfl, by simp, rfl⟩

/-- **C58**, for plain objects and integers that fit: omitted means five zeros, a list of five numbers is stored in order,
everything else is an error; nothing but the coefficients changes. -/
theorem C58_perturb_partial (P : PyNum) (o : Option PyObj) (t : TauD) (h : t.err = none) (hl : t.perturb.length = 5)
    (hp : ∀ x, o = some x → PlainObj x ∧ IntsFit P x) :
    (∃ as, PerturbArg P o as ∧ getPyPerturb P o t = .ok ({ t with perturb := as }, false)) ∨
    ((¬ ∃ as, PerturbArg P o as) ∧ ∃ r, getPyPerturb P o t = .ok (r, false) ∧ r.err ≠ none ∧
      { r with err := t.err, perturb := t.perturb } = t) := by
  have h' : t.err.isSome = false := by rw [h]; rfl
  cases o with
  | none => exact .inl ⟨_, .omitted, by simp [getPyPerturb, h']⟩
  | some o =>
    obtain ⟨hp, hi⟩ := hp o rfl
    cases o with
    | list n it =>
      obtain ⟨l, rfl, hn⟩ := hp
      by_cases h5 : n = 5
      · subst h5
        rcases perturbLoop_cases P l 5 0 t (by omega) hi h with ⟨as, h1, h2, e⟩ | ⟨⟨i, x, h1, h2, h3⟩, r, e, h4, h5⟩
        · left
          match l, hn, as, h1 with
          | [x0, x1, x2, x3, x4], _, [a0, a1, a2, a3, a4], _ =>
            refine ⟨[a0, a1, a2, a3, a4], ?_, ?_⟩
            · have key : ∀ i x a, i < 5 → [x0, x1, x2, x3, x4][i]? = some x → [a0, a1, a2, a3, a4][i]? = some a → PyValue P x a := by
                intro i x a hi hx ha
                obtain ⟨x', a', q1, q2, q3⟩ := h2 i hi
                rw [Nat.zero_add, hx] at q1
                rw [ha] at q2
                cases q1; cases q2; exact q3
              exact .list x0 x1 x2 x3 x4 [] a0 a1 a2 a3 a4 (key 0 _ _ (by omega) rfl rfl) (key 1 _ _ (by omega) rfl rfl)
                (key 2 _ _ (by omega) rfl rfl) (key 3 _ _ (by omega) rfl rfl) (key 4 _ _ (by omega) rfl rfl)
            · simp only [getPyPerturb, h', Bool.false_eq_true, if_false, ne_eq, not_true]
              rw [e]
              congr 3
              exact perturb_set t hl a0 a1 a2 a3 a4
        · right
          refine ⟨?_, r, by simp [getPyPerturb, h', e], h4, h5⟩
          rintro ⟨as, ha⟩
          cases ha with
          | list x0 x1 x2 x3 x4 rest a0 a1 a2 a3 a4 q0 q1 q2 q3 q4 =>
            rw [Nat.zero_add] at h2
            match i, h1 with
            | 0, _ => cases h2; exact h3 _ q0
            | 1, _ => cases h2; exact h3 _ q1
            | 2, _ => cases h2; exact h3 _ q2
            | 3, _ => cases h2; exact h3 _ q3
            | 4, _ => cases h2; exact h3 _ q4
      · refine .inr ⟨?_, t.fail .py 55, by simp [getPyPerturb, h', h5], by simp, rfl⟩
        rintro ⟨as, ha⟩
        cases ha
        exact h5 rfl
    | bytes s => exact .inr ⟨(by rintro ⟨a, hr⟩; cases hr), t.fail .py 99, by simp [getPyPerturb, h'], by simp, rfl⟩
    | str s => exact .inr ⟨(by rintro ⟨a, hr⟩; cases hr), t.fail .py 99, by simp [getPyPerturb, h'], by simp, rfl⟩
    | int s => exact .inr ⟨(by rintro ⟨a, hr⟩; cases hr), t.fail .py 99, by simp [getPyPerturb, h'], by simp, rfl⟩
    | float s => exact .inr ⟨(by rintro ⟨a, hr⟩; cases hr), t.fail .py 99, by simp [getPyPerturb, h'], by simp, rfl⟩
    | other => exact .inr ⟨(by rintro ⟨a, hr⟩; cases hr), t.fail .py 99, by simp [getPyPerturb, h'], by simp, rfl⟩

/-- The negation of **C58**: an integer that does not fit becomes the coefficient -1 without an error. -/
theorem C58_overflow_false (P : PyNum) (z : Int) (hz : P.ofInt z = none) (t : TauD) (h : t.err = none)
    (hl : t.perturb.length = 5) :
    getPyPerturb P (some (.list 5 (some [.int z, .float (.fin 0), .float (.fin 0), .float (.fin 0), .float (.fin 0)]))) t =
      .ok ({ t with perturb := [.fin (-1), .fin 0, .fin 0, .fin 0, .fin 0] }, true) := by
  have h' : t.err.isSome = false := by rw [h]; rfl
  have e1 : pyNumber P (.int z) = some (.fin (-1), true) := by simp [pyNumber, hz]
  simp only [getPyPerturb, h', Bool.false_eq_true, if_false, ne_eq, not_true]
  rw [perturbLoop_step _ _ _ _ _ _ _ rfl]
  simp only [e1]
  rw [perturbLoop_step _ _ _ _ _ _ _ rfl]
  simp only [pyNumber]
  rw [perturbLoop_step _ _ _ _ _ _ _ rfl]
  simp only [pyNumber]
  rw [perturbLoop_step _ _ _ _ _ _ _ rfl]
  simp only [pyNumber]
  rw [perturbLoop_step _ _ _ _ _ _ _ rfl]
  simp only [pyNumber]
  rw [perturbLoop]
  simp only [perturb_set t hl]
  rfl

/-- The negation of **C58** for lists of a subclass that iterate over too few elements. -/
theorem C58_subclass_false (P : PyNum) (t : TauD) (h : t.err = none) :
    getPyPerturb P (some (.list 5 (some []))) t = .ub .nullDeref ∧ getPyPerturb P (some (.list 5 none)) t = .ub .nullDeref := by
  have h' : t.err.isSome = false := by rw [h]; rfl
  exact ⟨by simp [getPyPerturb, h', perturbLoop, pyNext], by simp [getPyPerturb, h', perturbLoop, pyNext]⟩

/-! ### C59 -/

/-- **C59**, what is true: a missing attribute and an array of the wrong length set the error; an array of the right length
is taken as it is; after an error nothing is touched. -/
theorem C59_extract_partial (p : PyDlp) (d : DLP) (f : DFld) (h : d.errorOccurred = false) :
    (p.attr f = .missing → extractData p d f = .ok ({ d with errorOccurred := true }, none)) ∧
    (∀ l, p.attr f = .vec l → l.length ≠ d.arrSize → extractData p d f = .ok ({ d with errorOccurred := true }, none)) ∧
    (∀ l, p.attr f = .vec l → l.length = d.arrSize → extractData p d f = .ok (d, some l)) := by
  refine ⟨fun e => ?_, fun l e hl => ?_, fun l e hl => ?_⟩
  · simp [extractData, h, e]
  · simp [extractData, h, e, hl]
  · simp [extractData, h, e, hl]

/-- The negation of **C59** for attributes that are not arrays (say, lists): the message is written to NULL. -/
theorem C59_notArray_false (p : PyDlp) (d : DLP) (f : DFld) (h : d.errorOccurred = false) (ha : p.attr f = .notArray) :
    extractData p d f = .ub .nullDeref := by
  simp [extractData, h, ha]

/-- The negation of **C59** for arrays that are not one-dimensional or not numeric: the dimensions of a NULL array are read
before the test for NULL. -/
theorem C59_badArray_false (p : PyDlp) (d : DLP) (f : DFld) (h : d.errorOccurred = false) (ha : p.attr f = .badArray) :
    extractData p d f = .ub .nullDeref := by
  simp [extractData, h, ha]

theorem extractAll_err (p : PyDlp) : ∀ (fs : List DFld) (d : DLP), d.errorOccurred = true →
    ∃ d', extractAll p fs d = .ok d' ∧ d'.errorOccurred = true
  | [], d, h => ⟨d, rfl, h⟩
  | f :: fs, d, h => by
    simp only [extractAll, extractData, h, if_true, Res.ok_bind]
    exact extractAll_err p fs _ rfl

theorem extractAll_ok (p : PyDlp) (n : Nat) : ∀ (fs : List DFld) (d : DLP), d.errorOccurred = false → d.arrSize = n →
    (∀ f ∈ fs, p.attr f ≠ .notArray ∧ p.attr f ≠ .badArray) →
    ∃ d', extractAll p fs d = .ok d' ∧
      (d'.errorOccurred = false ↔ ∀ f ∈ fs, ∃ l, p.attr f = .vec l ∧ l.length = n)
  | [], d, h, _, _ => ⟨d, rfl, by simp [h]⟩
  | f :: fs, d, h, hn, hk => by
    obtain ⟨k1, k2⟩ := hk f List.mem_cons_self
    have hk' : ∀ g ∈ fs, p.attr g ≠ .notArray ∧ p.attr g ≠ .badArray := fun g hg => hk g (List.mem_cons_of_mem _ hg)
    cases ha : p.attr f with
    | notArray => exact absurd ha k1
    | badArray => exact absurd ha k2
    | missing =>
      simp only [extractAll, (C59_extract_partial p d f h).1 ha, Res.ok_bind]
      obtain ⟨d', e, he⟩ := extractAll_err p fs { d with
        errorOccurred := true
        arr := fun g => if g = f then none else d.arr g } rfl
      refine ⟨d', e, ?_⟩
      rw [he]
      simp only [Bool.true_eq_false, List.forall_mem_cons, false_iff, ha, reduceCtorEq, false_and, exists_false, not_false_iff]
    | vec l =>
      by_cases hl : l.length = d.arrSize
      · simp only [extractAll, (C59_extract_partial p d f h).2.2 l ha hl, Res.ok_bind]
        obtain ⟨d', e, he⟩ := extractAll_ok p n fs { d with arr := fun g => if g = f then some l else d.arr g } h hn hk'
        refine ⟨d', e, ?_⟩
        rw [he, List.forall_mem_cons]
        exact ⟨fun q => ⟨⟨l, ha, hl.trans hn⟩, q⟩, fun q => q.2⟩
      · simp only [extractAll, (C59_extract_partial p d f h).2.1 l ha hl, Res.ok_bind]
        obtain ⟨d', e, he⟩ := extractAll_err p fs { d with
          errorOccurred := true
          arr := fun g => if g = f then none else d.arr g } rfl
        refine ⟨d', e, ?_⟩
        rw [he]
        simp only [Bool.true_eq_false, List.forall_mem_cons, false_iff, not_and]
        rintro ⟨l', q1, q2⟩
        rw [ha] at q1; cases q1
        exact absurd (q2.trans hn.symm) hl

theorem extractAll_arr (p : PyDlp) : ∀ (fs : List DFld) (d d' : DLP), extractAll p fs d = .ok d' → d'.errorOccurred = false →
    d.errorOccurred = false ∧ d'.arrSize = d.arrSize ∧ (∀ g, g ∉ fs → d'.arr g = d.arr g) ∧
      ∀ f ∈ fs, ∃ l, p.attr f = .vec l ∧ d'.arr f = some l ∧ l.length = d.arrSize
  | [], d, d', e, h => by cases e; exact ⟨h, rfl, fun _ _ => rfl, by simp⟩
  | f :: fs, d, d', e, h => by
    cases hd : d.errorOccurred with
    | true =>
      obtain ⟨d2, e2, h2⟩ := extractAll_err p (f :: fs) d hd
      rw [e] at e2; cases e2
      rw [h] at h2; cases h2
    | false =>
      rw [extractAll, Res.bind_eq_ok] at e
      obtain ⟨r, e1, e2⟩ := e
      obtain ⟨h1, h2, h3, h4⟩ := extractAll_arr p fs _ d' e2 h
      have h1 : r.1.errorOccurred = false := h1
      have hr : ∃ l, p.attr f = .vec l ∧ l.length = d.arrSize ∧ r = (d, some l) := by
        cases ha : p.attr f with
        | missing => rw [(C59_extract_partial p d f hd).1 ha] at e1; cases e1; cases h1
        | notArray => rw [C59_notArray_false p d f hd ha] at e1; cases e1
        | badArray => rw [C59_badArray_false p d f hd ha] at e1; cases e1
        | vec l =>
          by_cases hl : l.length = d.arrSize
          · rw [(C59_extract_partial p d f hd).2.2 l ha hl] at e1; cases e1
            exact ⟨l, rfl, hl, rfl⟩
          · rw [(C59_extract_partial p d f hd).2.1 l ha hl] at e1; cases e1; cases h1
      obtain ⟨l, ha, hl, rfl⟩ := hr
      refine ⟨rfl, h2, ?_, ?_⟩
      · intro g hg
        rw [List.mem_cons, not_or] at hg
        rw [h3 g hg.2]
        show (if g = f then some l else d.arr g) = d.arr g
        rw [if_neg hg.1]
      · intro g hg
        by_cases hgf : g ∈ fs
        · exact h4 g hgf
        · have : g = f := by
            rcases List.mem_cons.1 hg with h | h
            · exact h
            · exact absurd h hgf
          subst this
          refine ⟨l, ha, ?_, hl⟩
          rw [h3 g hgf]
          show (if g = g then some l else d.arr g) = _
          rw [if_pos rfl]

theorem extractOrder_all (f : DFld) (h : f ≠ .rho) : f ∈ extractOrder := by
  cases f <;> first | decide | exact absurd rfl h

/-- **C59** for the whole DLP argument, if no attribute but `rho_km_vals` is of the two kinds above: never undefined, and no
error exactly if every attribute is an array as long as the radii. -/
theorem C59_dlp_partial (p : PyDlp) (h : ∀ f, f ≠ .rho → p.attr f ≠ .notArray ∧ p.attr f ≠ .badArray) :
    ∃ d, pyDlpToC true p = .ok (some d) ∧
      (d.errorOccurred = false ↔ ∃ r, p.attr .rho = .vec r ∧ ∀ f, ∃ l, p.attr f = .vec l ∧ l.length = r.length) := by
  by_cases hv : ∃ r, p.attr .rho = .vec r
  · obtain ⟨r, ha⟩ := hv
    obtain ⟨d, e, he⟩ := extractAll_ok p r.length extractOrder ⟨fun g => if g = .rho then some r else none, r.length, false⟩ rfl rfl
      (fun f hf => h f (by intro hc; subst hc; exact absurd hf (by decide)))
    refine ⟨d, by simp [pyDlpToC, ha, e, Res.ok_bind], ?_⟩
    rw [he]
    constructor
    · intro q
      refine ⟨r, ha, fun f => ?_⟩
      by_cases hf : f = .rho
      · subst hf; exact ⟨r, ha, rfl⟩
      · exact q f (extractOrder_all f hf)
    · rintro ⟨r', hr, q⟩ f -
      rw [ha] at hr
      cases hr
      exact q f
  · refine ⟨⟨fun _ => none, 0, true⟩, ?_, ?_⟩
    · unfold pyDlpToC
      cases ha : p.attr .rho with
      | vec r => exact absurd ⟨r, ha⟩ hv
      | _ => rfl
    · simp only [Bool.true_eq_false, false_iff]
      rintro ⟨r, hr, -⟩
      exact hv ⟨r, hr⟩

/-- **C59**, soundness: a DLP object without error holds exactly the arrays of the attributes, all of the same length. -/
theorem C59_faithful (mem : Bool) (p : PyDlp) (d : DLP) (e : pyDlpToC mem p = .ok (some d)) (h : d.errorOccurred = false) :
    WellFormed d ∧ ∀ f, ∃ l, p.attr f = .vec l ∧ d.arr f = some l ∧ l.length = d.arrSize := by
  have key : ∀ f, ∃ l, p.attr f = .vec l ∧ d.arr f = some l ∧ l.length = d.arrSize := by
    unfold pyDlpToC at e
    cases mem with
    | false => cases e
    | true =>
      simp only [Bool.not_true, Bool.false_eq_true, if_false] at e
      cases ha : p.attr .rho with
      | missing => rw [ha] at e; cases e; cases h
      | notArray => rw [ha] at e; cases e; cases h
      | badArray => rw [ha] at e; cases e; cases h
      | vec r =>
        rw [ha] at e
        simp only [Res.bind_eq_ok] at e
        obtain ⟨d', e1, e2⟩ := e
        cases e2
        obtain ⟨-, h2, h3, h4⟩ := extractAll_arr p _ _ _ e1 h
        intro f
        by_cases hf : f = .rho
        · subst hf
          exact ⟨r, ha, by rw [h3 .rho (by decide)]; rfl, by rw [h2]⟩
        · obtain ⟨l, q1, q2, q3⟩ := h4 f (extractOrder_all f hf)
          exact ⟨l, q1, q2, by rw [h2]; exact q3⟩
  exact ⟨fun f _ => by obtain ⟨l, -, q2, q3⟩ := key f; exact ⟨l, q2, q3⟩, key⟩

/-! ### Examples -/

/-- Integers up to `10 ^ 308` fit. -/
def pyNum : PyNum := ⟨fun z => if z.natAbs ≤ 10 ^ 308 then some (.fin z) else none⟩

/-- `C57_range_partial`, accepted: `[87400, 87600.5]`. -/
example : RangeArg pyNum (.list 2 (some [.int 87400, .float (.fin (175201/2))])) (.fin 87400) (.fin (175201/2)) :=
  .pair _ _ _ _ _ (.int _ _ (by decide +kernel)) (.float _)
example : PlainObj (.list 2 (some [.int 87400, .float (.fin (175201/2))])) := ⟨_, rfl, rfl⟩
example : IntsFit pyNum (.list 2 (some [.int 87400, .float (.fin (175201/2))])) := by
  intro z hz
  simp at hz
  subst hz
  decide +kernel
/-- `C57_range_partial`, accepted: `"Maxwell Ringlet"`. -/
example : RangeArg pyNum (.str (some "Maxwell Ringlet".toList)) (.fin 87410) (.fin 87610) :=
  .str _ ("maxwellringlet", 87410, 87610) (by simp [rangeNames]) (by rw [matches_iff]; decide)
/-- `C57_range_partial`, rejected: three elements. -/
example : ¬ ∃ a b, RangeArg pyNum (.list 3 (some [.int 1, .int 2, .int 3])) a b := by
  rintro ⟨a, b, h⟩; cases h
/-- `C57_overflow_false`, `C58_overflow_false`. -/
example : pyNum.ofInt (10 ^ 400) = none := by decide +kernel
/-- `C58_perturb_partial`. -/
example : PerturbArg pyNum (some (.list 5 (some [.int 0, .int 1, .float (.fin (1/2)), .int (-3), .int 7])))
    [.fin 0, .fin 1, .fin (1/2), .fin (-3), .fin 7] :=
  .list _ _ _ _ _ [] _ _ _ _ _ (.int _ _ (by decide +kernel)) (.int _ _ (by decide +kernel)) (.float _)
    (.int _ _ (by decide +kernel)) (.int _ _ (by decide +kernel))
/-- `C59`: all attributes are arrays of three elements, except that one may be something else. -/
def pyDlp (f : DFld) (a : PyAttr) : PyDlp where
  attr g := if g = f then a else .vec [.fin 1, .fin 2, .fin 3]
  history := true

example : (pyDlp .B .notArray).attr .B = .notArray := rfl
example : pyDlpToC true (pyDlp .B .notArray) = .ub .nullDeref := rfl
example : pyDlpToC true (pyDlp .rz .badArray) = .ub .nullDeref := rfl
example : ∀ f, f ≠ .rho → (pyDlp .D (.vec [.fin 1])).attr f ≠ .notArray ∧ (pyDlp .D (.vec [.fin 1])).attr f ≠ .badArray := by
  intro f _; cases f <;> simp [pyDlp]
example : ∃ d, pyDlpToC true (pyDlp .rho (.vec [.fin 5, .fin 6, .fin 7])) = .ok (some d) ∧ d.errorOccurred = false := ⟨_, rfl, rfl⟩

end Verif
