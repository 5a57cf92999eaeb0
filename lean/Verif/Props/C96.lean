import Verif.Props.C95
import Verif.Props.C72

/-!
# C96: the range of radii of a profile
-/
namespace Verif.Cal
open Verif.Rsr Verif.Geo Verif.Geo.Spec

theorem argmin_near {l : List ℚ} {c : ℚ} {i : Nat} (h : argmin (l.map fun r => |r - c|) = .ok i) :
    i < l.length ∧ ∀ k, k < l.length → |l.getD i 0 - c| ≤ |l.getD k 0 - c| := by
  have hne : l ≠ [] := by
    rintro rfl
    cases h
  obtain ⟨i', h1, x, h2, h3, -⟩ := argmin_get (l.map fun r => |r - c|) (by simpa using hne)
  rw [h1] at h
  cases h
  obtain ⟨hi, e⟩ := List.getElem?_eq_some_iff.mp h2
  rw [List.length_map] at hi
  rw [List.getElem_map] at e
  refine ⟨hi, fun k hk => ?_⟩
  rw [getD_at hi, getD_at hk, e]
  exact h3 k _ (by rw [List.getElem?_map, List.getElem?_eq_getElem hk]; rfl)

theorem sliceRange_ok {α : Type} {rho : List ℚ} {iq : List α} {a b : ℚ} {r : List ℚ × List α}
    (h : sliceRange rho iq a b = .ok r) : ∃ i j, (∃ x ∈ rho, a < x ∧ x < b) ∧ argmin (rho.map fun r => |r - a|) = .ok i ∧
      argmin (rho.map fun r => |r - b|) = .ok j ∧ r = (slice rho i (j + 1), slice iq i (j + 1)) := by
  unfold sliceRange at h
  split at h
  · rename_i hany
    cases h1 : argmin (rho.map fun r => |r - a|) with
    | error e => rw [h1] at h; cases h
    | ok i =>
      cases h2 : argmin (rho.map fun r => |r - b|) with
      | error e => rw [h1, h2] at h; cases h
      | ok j =>
        rw [h1, h2] at h
        cases h
        refine ⟨i, j, ?_, rfl, rfl, rfl⟩
        simpa using hany
  · cases h

theorem mem_slice {l : List ℚ} {i j : Nat} {x : ℚ} : x ∈ slice l i j ↔ ∃ k, i ≤ k ∧ k < j ∧ k < l.length ∧ l.getD k 0 = x := by
  unfold slice
  constructor
  · intro h
    obtain ⟨k, hk, rfl⟩ := List.getElem_of_mem h
    rw [List.length_drop, List.length_take] at hk
    refine ⟨i + k, by omega, by omega, by omega, ?_⟩
    rw [List.getElem_drop, List.getElem_take, getD_at]
  · rintro ⟨k, h1, h2, h3, rfl⟩
    rw [List.mem_iff_getElem]
    refine ⟨k - i, by rw [List.length_drop, List.length_take]; omega, ?_⟩
    rw [List.getElem_drop, List.getElem_take, getD_at h3]
    congr 1
    omega

/-- The profile keeps all radii of the range, with their values, and no others but one at each end that is at most half a step
outside; data without a radius inside are refused. -/
theorem C96_range_partial {α : Type} {rho : List ℚ} {iq : List α} {a b d : ℚ} (h1 : Growing rho) (h0 : 0 ≤ d)
    (hd : ∀ i, i + 1 < rho.length → rho.getD (i + 1) 0 - rho.getD i 0 ≤ d) :
    ((∃ x ∈ rho, a < x ∧ x < b) ↔ ∃ r, sliceRange rho iq a b = .ok r) ∧
    ∀ r, sliceRange rho iq a b = .ok r →
      (∀ x ∈ rho, a ≤ x → x ≤ b → x ∈ r.1) ∧ (∀ x ∈ r.1, x ∈ rho ∧ a - d / 2 ≤ x ∧ x ≤ b + d / 2) ∧ Growing r.1 ∧
      r.1.zip r.2 <:+: rho.zip iq := by
  constructor
  · constructor
    · rintro ⟨x, x1, x2⟩
      have hne : rho ≠ [] := List.ne_nil_of_mem x1
      obtain ⟨i, hi, -⟩ := argmin_get (rho.map fun r => |r - a|) (by simpa using hne)
      obtain ⟨j, hj, -⟩ := argmin_get (rho.map fun r => |r - b|) (by simpa using hne)
      unfold sliceRange
      rw [if_pos (by simpa using ⟨x, x1, x2⟩), hi, hj]
      exact ⟨_, rfl⟩
    · rintro ⟨r, hr⟩
      obtain ⟨i, j, h, -⟩ := sliceRange_ok hr
      exact h
  · intro r hr
    obtain ⟨i, j, ⟨y, y1, y2, y3⟩, hi, hj, rfl⟩ := sliceRange_ok hr
    obtain ⟨i1, i2⟩ := argmin_near hi
    obtain ⟨j1, j2⟩ := argmin_near hj
    obtain ⟨m, hm, rfl⟩ := List.getElem_of_mem y1
    rw [← getD_at hm] at y2 y3
    have lo : a - d / 2 ≤ rho.getD i 0 := by
      by_contra hc
      rw [not_le] at hc
      have him : i < m := by
        by_contra hc'
        have := h1.le (show m ≤ i by omega) i1
        linarith
      have s1 := hd i (by omega)
      have s2 := h1.lt (Nat.lt_succ_self i) (by omega)
      simp only [Nat.succ_eq_add_one] at s2
      have s3 := i2 (i + 1) (by omega)
      have s4 : rho.getD i 0 < a := by linarith
      rw [abs_of_neg (by linarith : rho.getD i 0 - a < 0)] at s3
      rcases le_abs.mp s3 with h | h <;> linarith
    have hi' : rho.getD j 0 ≤ b + d / 2 := by
      by_contra hc
      rw [not_le] at hc
      have hmj : m < j := by
        by_contra hc'
        have := h1.le (show j ≤ m by omega) hm
        linarith
      have s1 := hd (j - 1) (by omega)
      rw [show j - 1 + 1 = j by omega] at s1
      have s2 := h1.lt (show j - 1 < j by omega) j1
      have s3 := j2 (j - 1) (by omega)
      rw [abs_of_pos (by linarith : 0 < rho.getD j 0 - b)] at s3
      rcases le_abs.mp s3 with h | h <;> linarith
    refine ⟨?_, ?_, ?_, ?_⟩
    · intro x hx hxa hxb
      obtain ⟨k, hk, rfl⟩ := List.getElem_of_mem hx
      rw [← getD_at hk] at hxa hxb ⊢
      refine mem_slice.mpr ⟨k, ?_, ?_, hk, rfl⟩
      · by_contra hc
        have := h1.lt (show k < i by omega) i1
        have := i2 k hk
        rw [abs_of_nonneg (by linarith), abs_of_nonneg (by linarith)] at this
        linarith
      · by_contra hc
        have := h1.lt (show j < k by omega) hk
        have := j2 k hk
        rw [abs_of_nonpos (by linarith), abs_of_nonpos (by linarith)] at this
        linarith
    · intro x hx
      obtain ⟨k, k1, k2, k3, rfl⟩ := mem_slice.mp hx
      refine ⟨by rw [getD_at k3]; exact List.getElem_mem _, lo.trans (h1.le k1 k3), (h1.le (show k ≤ j by omega) j1).trans hi'⟩
    · exact List.Pairwise.sublist ((List.drop_sublist _ _).trans (List.take_sublist _ _)) h1
    · show (slice rho i (j + 1)).zip (slice iq i (j + 1)) <:+: _
      rw [slice_zip]
      exact (List.drop_suffix _ _).isInfix.trans (List.take_prefix _ _).isInfix

example : Growing [100, 101, 102, 103, 104] ∧
    sliceRange [100, 101, 102, 103, 104] ['a', 'b', 'c', 'd', 'e'] (403 / 4) 103 = .ok ([101, 102, 103], ['b', 'c', 'd']) := by
  unfold Growing
  decide +kernel

/-- A radius outside the range is kept if it is nearest to the limit. -/
theorem C96_outside_false : ∃ (rho : List ℚ) (iq : List Nat) (a b : ℚ) (r : List ℚ × List Nat), Growing rho ∧
    sliceRange rho iq a b = .ok r ∧ ∃ x ∈ r.1, x < a := by
  refine ⟨[100, 101, 102], [0, 1, 2], 401 / 4, 102, ([100, 101, 102], [0, 1, 2]), ?_⟩
  unfold Growing
  refine ⟨by decide +kernel, by decide +kernel, 100, by decide +kernel⟩

/-- Data of which only the limits of the range lie inside are refused. -/
theorem C96_limits_false : ∃ (rho : List ℚ) (iq : List Nat) (a b : ℚ), Growing rho ∧ a < b ∧ (∃ x ∈ rho, a ≤ x ∧ x ≤ b) ∧
    sliceRange rho iq a b = .error .value := by
  refine ⟨[100, 101, 102], [0, 1, 2], 100, 101, ?_⟩
  unfold Growing
  refine ⟨by decide +kernel, by decide +kernel, ⟨100, by decide +kernel⟩, by decide +kernel⟩

end Verif.Cal
