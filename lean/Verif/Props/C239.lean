import Verif.Model.ChordMark
import Mathlib.Tactic.Linarith
import Mathlib.Tactic.NormNum

/-!
# The circle on the page of the geometry of a chord (C239)
-/
namespace Verif.Chord
open Verif.Rsr Verif.Cmp

/-- Within the bounds of the rings, 70000 and 150000 km. -/
def Spec.InRings (r : ℚ) : Prop := 70000 < r ∧ r < 150000

/-- Sample `i` is the first within the bounds of the rings. -/
def Spec.Start (rho : List ℚ) (i : Nat) : Prop :=
  (∃ r, rho[i]? = some r ∧ Spec.InRings r) ∧ ∀ j < i, ∀ r, rho[j]? = some r → ¬ Spec.InRings r

theorem foldl_max_mem (t : List ℚ) (x : ℚ) : t.foldl max x ∈ x :: t := by
  induction t generalizing x with
  | nil => simp
  | cons a t ih =>
    rw [List.foldl_cons]
    have := ih (max x a)
    rcases max_choice x a with h | h <;> rw [h] at this ⊢ <;> simp only [List.mem_cons] at this ⊢ <;> tauto

theorem foldl_min_mem (t : List ℚ) (x : ℚ) : t.foldl min x ∈ x :: t := by
  induction t generalizing x with
  | nil => simp
  | cons a t ih =>
    rw [List.foldl_cons]
    have := ih (min x a)
    rcases min_choice x a with h | h <;> rw [h] at this ⊢ <;> simp only [List.mem_cons] at this ⊢ <;> tauto

theorem firstOr_ok (c : ℚ → Bool) (m : ℚ) (rho : List ℚ) (hm : m ∈ rho) : ∃ i, firstOr c m rho = .ok i ∧ ∃ r, rho[i]? = some r ∧
    (c r = true ∧ (∀ j < i, ∀ r', rho[j]? = some r' → c r' = false) ∨ (∀ r' ∈ rho, c r' = false) ∧ r = m) := by
  unfold firstOr
  cases h : rho.findIdx? c with
  | some i =>
    obtain ⟨hi, h1, h2⟩ := List.findIdx?_eq_some_iff_getElem.mp h
    refine ⟨i, rfl, rho[i], List.getElem?_eq_getElem hi, Or.inl ⟨h1, fun j hj r' hr => ?_⟩⟩
    obtain ⟨hj', rfl⟩ := List.getElem?_eq_some_iff.mp hr
    have := h2 j hj
    simpa using this
  | none =>
    have hn : ∀ r' ∈ rho, c r' = false := List.findIdx?_eq_none_iff.mp h
    cases h' : rho.findIdx? (· == m) with
    | some i =>
      obtain ⟨hi, h1, h2⟩ := List.findIdx?_eq_some_iff_getElem.mp h'
      exact ⟨i, rfl, rho[i], List.getElem?_eq_getElem hi, Or.inr ⟨hn, by simpa using h1⟩⟩
    | none =>
      have := List.findIdx?_eq_none_iff.mp h' m hm
      simp at this

/-- With two samples or more there is a circle, at one of the samples. -/
theorem C239_index (rho : List ℚ) (h : 2 ≤ rho.length) : ∃ i, ind0 rho = .ok i ∧ i < rho.length := by
  match rho, h with
  | a :: b :: t, _ =>
    have key : ∀ (c : ℚ → Bool) (m : ℚ), m ∈ a :: b :: t → ∃ i, firstOr c m (a :: b :: t) = .ok i ∧ i < (a :: b :: t).length := by
      intro c m hm
      obtain ⟨i, hi, r, hr, _⟩ := firstOr_ok c m _ hm
      exact ⟨i, hi, (List.getElem?_eq_some_iff.mp hr).1⟩
    by_cases hd : b - a < 0
    · obtain ⟨i, hi, hl⟩ := key (· < 150000) _ (foldl_max_mem (b :: t) a)
      exact ⟨i, by simpa [ind0, hd, npMax, bind, Except.bind] using hi, hl⟩
    · obtain ⟨i, hi, hl⟩ := key (70000 < ·) _ (foldl_min_mem (b :: t) a)
      exact ⟨i, by simpa [ind0, hd, npMin, bind, Except.bind] using hi, hl⟩

/-- The circle is at the first sample in the rings, if there is one, for a chord that begins inwards and stays above 70000 km, and for one that begins outwards
and stays below 150000 km. -/
theorem C239_start_partial (a b : ℚ) (t : List ℚ) (h : b < a ∧ (∀ r ∈ a :: b :: t, 70000 < r) ∨ a ≤ b ∧ ∀ r ∈ a :: b :: t, r < 150000)
    (hs : ∃ r ∈ a :: b :: t, Spec.InRings r) : ∃ i, ind0 (a :: b :: t) = .ok i ∧ Spec.Start (a :: b :: t) i := by
  obtain ⟨r0, hr0, hin⟩ := hs
  rcases h with ⟨hd, hall⟩ | ⟨hd, hall⟩
  · obtain ⟨i, hi, r, hr, h⟩ := firstOr_ok (· < 150000) _ _ (foldl_max_mem (b :: t) a)
    refine ⟨i, by simpa [ind0, hd, npMax, bind, Except.bind] using hi, ?_⟩
    rcases h with ⟨h1, h2⟩ | ⟨h1, _⟩
    · refine ⟨⟨r, hr, hall r (List.mem_of_getElem? hr), by simpa using h1⟩, fun j hj r' hr' hc => ?_⟩
      have := h2 j hj r' hr'
      simp only [decide_eq_false_iff_not] at this
      exact this hc.2
    · have := h1 r0 hr0
      simp only [decide_eq_false_iff_not] at this
      exact absurd hin.2 this
  · obtain ⟨i, hi, r, hr, h⟩ := firstOr_ok (70000 < ·) _ _ (foldl_min_mem (b :: t) a)
    have hd' : ¬ b - a < 0 := by linarith
    refine ⟨i, by simpa [ind0, hd', npMin, bind, Except.bind] using hi, ?_⟩
    rcases h with ⟨h1, h2⟩ | ⟨h1, _⟩
    · refine ⟨⟨r, hr, by simpa using h1, hall r (List.mem_of_getElem? hr)⟩, fun j hj r' hr' hc => ?_⟩
      have := h2 j hj r' hr'
      simp only [decide_eq_false_iff_not] at this
      exact this hc.1
    · have := h1 r0 hr0
      simp only [decide_eq_false_iff_not] at this
      exact absurd hin.1 this

/-- Inwards from 160000 km; outwards from 65000 km. -/
example : ind0 [160000, 155000, 149000, 120000, 130000] = .ok 2 ∧ ind0 [65000, 66000, 71000, 140000] = .ok 2 := by decide +kernel

/-- A chord that begins inwards below 70000 km has its circle at the first sample, outside the rings, though it comes to the rings later. -/
theorem C239_start_false : ∃ rho i, ind0 rho = .ok i ∧ (∃ r ∈ rho, Spec.InRings r) ∧ ¬ Spec.Start rho i := by
  refine ⟨[69000, 68000, 69000, 71000, 100000], 0, by decide +kernel, ⟨100000, by simp, by norm_num [Spec.InRings]⟩, ?_⟩
  rintro ⟨⟨r, hr, h⟩, _⟩
  simp only [List.getElem?_cons_zero, Option.some.injEq] at hr
  subst hr
  norm_num [Spec.InRings] at h

/-- And so has one that begins outwards above 150000 km. -/
theorem C239_outwards_false : ∃ a b t i, a < b ∧ ind0 (a :: b :: t) = .ok i ∧ (∃ r ∈ a :: b :: t, Spec.InRings r) ∧ ¬ Spec.Start (a :: b :: t) i := by
  refine ⟨160000, 161000, [160000, 149000, 100000], 0, by norm_num, by decide +kernel, ⟨100000, by simp, by norm_num [Spec.InRings]⟩, ?_⟩
  rintro ⟨⟨r, hr, h⟩, _⟩
  simp only [List.getElem?_cons_zero, Option.some.injEq] at hr
  subst hr
  norm_num [Spec.InRings] at h

end Verif.Chord
