import Verif.Model.Dlp
import Verif.Props.C88
import Verif.Props.C86
import Mathlib.Tactic.Linarith

/-!
# C95: the samples of a profile
-/
namespace Verif.Cal
open Verif.Rsr Verif.Geo Verif.Geo.Spec

theorem filter_slice {α : Type} (p : α → Bool) (l : List α) {i j : Nat} (hij : i ≤ j)
    (h : ∀ k (hk : k < l.length), p l[k] = true ↔ i ≤ k ∧ k < j) : l.filter p = slice l i j := by
  have e : l = l.take i ++ (slice l i j ++ l.drop j) := by
    have e1 : slice l i j ++ l.drop j = l.drop i := by
      unfold slice
      by_cases hj : j ≤ l.length
      · conv_rhs => rw [← List.take_append_drop j l]
        rw [List.drop_append_of_le_length (by simp; omega)]
      · rw [List.take_of_length_le (by omega), List.drop_of_length_le (l := l) (i := j) (by omega), List.append_nil]
    rw [e1, List.take_append_drop]
  conv_lhs => rw [e]
  rw [List.filter_append, List.filter_append]
  have f1 : (l.take i).filter p = [] := by
    rw [List.filter_eq_nil_iff]
    intro x hx
    obtain ⟨k, hk, rfl⟩ := List.getElem_of_mem hx
    rw [List.length_take] at hk
    rw [List.getElem_take, h k (by omega)]
    omega
  have f2 : (slice l i j).filter p = slice l i j := by
    rw [List.filter_eq_self]
    intro x hx
    obtain ⟨k, hk, rfl⟩ := List.getElem_of_mem hx
    unfold slice at hk ⊢
    rw [List.length_drop, List.length_take] at hk
    rw [List.getElem_drop, List.getElem_take, h (i + k) (by omega)]
    omega
  have f3 : (l.drop j).filter p = [] := by
    rw [List.filter_eq_nil_iff]
    intro x hx
    obtain ⟨k, hk, rfl⟩ := List.getElem_of_mem hx
    rw [List.length_drop] at hk
    rw [List.getElem_drop, h (j + k) (by omega)]
    omega
  rw [f1, f2, f3, List.append_nil, List.nil_append]

theorem slice_zip {α β : Type} (l : List α) (m : List β) (i j : Nat) : (slice l i j).zip (slice m i j) = slice (l.zip m) i j := by
  unfold slice
  rw [List.zip_eq_zipWith, List.zip_eq_zipWith, List.take_zipWith, List.drop_zipWith]

theorem slice_length {α β : Type} {l : List α} {m : List β} (h : l.length = m.length) (i j : Nat) :
    (slice l i j).length = (slice m i j).length := by
  unfold slice
  simp [h]

theorem firstIndex_ok {p : ℚ → Bool} {l : List ℚ} {i : Nat} (h : firstIndex p l = .ok i) :
    ∃ hi : i < l.length, p l[i] = true ∧ ∀ k (hk : k < i), p l[k] = false := by
  unfold firstIndex at h
  split at h
  · rename_i k hk
    cases h
    rw [List.findIdx?_eq_some_iff_getElem] at hk
    obtain ⟨h1, h2, h3⟩ := hk
    exact ⟨h1, h2, fun k hk => by simpa using h3 k hk⟩
  · cases h

theorem firstIndex_mem {a : ℚ} {l : List ℚ} (h : a ∈ l) : ∃ i, firstIndex (fun t => t = a) l = .ok i := by
  unfold firstIndex
  cases hf : l.findIdx? (fun t => decide (t = a)) with
  | some i => exact ⟨i, rfl⟩
  | none =>
    rw [List.findIdx?_eq_none_iff] at hf
    simpa using hf a h

theorem max_growing {l : List ℚ} (h : Growing l) (h0 : 0 < l.length) : pyMaxL l = .ok (l.getD (l.length - 1) 0) := by
  obtain ⟨m, h1, h2, h3⟩ := pyMaxL_spec l (List.ne_nil_of_length_pos h0)
  rw [h1]
  congr 1
  obtain ⟨k, hk, rfl⟩ := List.getElem_of_mem h2
  have e1 : l.getD (l.length - 1) 0 ≤ l[k] := by
    rw [getD_at (by omega)]
    exact h3 _ (List.getElem_mem _)
  have e2 := h.le (show k ≤ l.length - 1 by omega) (by omega)
  rw [getD_at hk] at e2
  exact le_antisymm e2 e1

/-- Samples of which some lie outside the times of the geometry are reduced to those from its first to before its last time, if both
times are times of samples; if none lies outside, all are kept.  Every sample keeps its time. -/
theorem C95_samples_partial {α : Type} {spm spmGeo : List ℚ} {iq : List α} (h1 : Growing spm) (h2 : Growing spmGeo)
    (hl : spm.length = iq.length) (hn : spmGeo ≠ []) (ha : spmGeo.getD 0 0 ∈ spm) (hb : spmGeo.getD (spmGeo.length - 1) 0 ∈ spm) :
    ∃ r, trimSamples spm iq spmGeo = .ok r ∧ r.1.length = r.2.length ∧
      ((∀ t ∈ spm, spmGeo.getD 0 0 ≤ t ∧ t ≤ spmGeo.getD (spmGeo.length - 1) 0) → r = (spm, iq)) ∧
      (¬ (∀ t ∈ spm, spmGeo.getD 0 0 ≤ t ∧ t ≤ spmGeo.getD (spmGeo.length - 1) 0) →
        r.1.zip r.2 = (spm.zip iq).filter fun x => decide (spmGeo.getD 0 0 ≤ x.1) && decide (x.1 < spmGeo.getD (spmGeo.length - 1) 0)) := by
  have hpos := List.length_pos_of_ne_nil hn
  set a := spmGeo.getD 0 0 with hae
  set b := spmGeo.getD (spmGeo.length - 1) 0 with hbe
  have hab : a ≤ b := h2.le (Nat.zero_le _) (by omega)
  unfold trimSamples
  rw [max_growing h2 hpos, min_growing h2 hpos]
  simp only [bind, Except.bind, ← hae, ← hbe]
  by_cases hin : ∀ t ∈ spm, a ≤ t ∧ t ≤ b
  · rw [if_neg]
    · exact ⟨_, rfl, hl, fun _ => rfl, fun h => absurd hin h⟩
    · simp only [Bool.or_eq_true, List.any_eq_true, decide_eq_true_eq, not_or, not_exists, not_and, not_lt]
      exact ⟨fun t ht => (hin t ht).2, fun t ht => (hin t ht).1⟩
  · rw [if_pos]
    · obtain ⟨i, hi⟩ := firstIndex_mem ha
      obtain ⟨j, hj⟩ := firstIndex_mem hb
      rw [hi, hj]
      obtain ⟨i1, i2, -⟩ := firstIndex_ok hi
      obtain ⟨j1, j2, -⟩ := firstIndex_ok hj
      rw [decide_eq_true_eq] at i2 j2
      refine ⟨_, rfl, slice_length hl i j, fun h => absurd h hin, fun _ => ?_⟩
      rw [slice_zip, eq_comm]
      have hij : i ≤ j := by
        by_contra hc
        have := h1.lt (show j < i by omega) i1
        rw [getD_at i1, getD_at j1, i2, j2] at this
        linarith
      apply filter_slice _ _ hij
      intro k hk
      rw [List.length_zip] at hk
      have hk' : k < spm.length := by omega
      rw [List.getElem_zip]
      simp only [Bool.and_eq_true, decide_eq_true_eq]
      rw [← i2, ← j2, ← getD_at i1, ← getD_at j1, ← getD_at hk']
      constructor
      · rintro ⟨u1, u2⟩
        constructor
        · by_contra hc
          have := h1.lt (show k < i by omega) i1
          linarith
        · by_contra hc
          have := h1.le (show j ≤ k by omega) hk'
          linarith
      · rintro ⟨u1, u2⟩
        exact ⟨h1.le u1 hk', h1.lt u2 j1⟩
    · simp only [not_forall, not_and_or, not_le] at hin
      simp only [Bool.or_eq_true, List.any_eq_true, decide_eq_true_eq]
      obtain ⟨t, ht, h | h⟩ := hin
      · exact Or.inr ⟨t, ht, h⟩
      · exact Or.inl ⟨t, ht, h⟩

example : Growing [0, 1, 2, 3, 4] ∧ Growing [1, 3] ∧ ([1, 3] : List ℚ).getD 0 0 ∈ ([0, 1, 2, 3, 4] : List ℚ) ∧
    trimSamples [0, 1, 2, 3, 4] ['a', 'b', 'c', 'd', 'e'] [1, 3] = .ok ([1, 2], ['b', 'c']) := by
  unfold Growing
  decide +kernel

/-- The last sample of the geometry is lost if there are samples after it. -/
theorem C95_last_false : ∃ (spm spmGeo : List ℚ) (iq : List Nat) (r : List ℚ × List Nat), Growing spm ∧ Growing spmGeo ∧
    trimSamples spm iq spmGeo = .ok r ∧ ∃ t ∈ spm, t ∈ spmGeo ∧ t ∉ r.1 := by
  refine ⟨[0, 1, 2, 3, 4], [1, 2, 3], [0, 1, 2, 3, 4], ([1, 2], [1, 2]), ?_⟩
  unfold Growing
  refine ⟨by decide +kernel, by decide +kernel, by decide +kernel, 3, by decide +kernel⟩

/-- A geometry that begins between two samples is refused. -/
theorem C95_between_false : ∃ (spm spmGeo : List ℚ) (iq : List Nat), Growing spm ∧ Growing spmGeo ∧ spm.length = iq.length ∧
    (∃ t ∈ spm, t < spmGeo.getD 0 0) ∧ (∃ t ∈ spm, spmGeo.getD 0 0 ≤ t ∧ t ∈ spmGeo) ∧ trimSamples spm iq spmGeo = .error .index := by
  refine ⟨[0, 1, 2, 3, 4], [1 / 2, 1, 2, 3], [0, 1, 2, 3, 4], ?_⟩
  unfold Growing
  exact ⟨by decide +kernel, by decide +kernel, by decide +kernel, ⟨0, by decide +kernel⟩, ⟨1, by decide +kernel⟩, by decide +kernel⟩

end Verif.Cal
