import Verif.Model.DlpTau
import Mathlib.Analysis.SpecialFunctions.Trigonometric.Bounds

/-!
# C99: optical depth and the largest that can be measured
-/
namespace Verif.Cal
open Real Verif.Geo

theorem sin_pos_deg {b : ℝ} (h0 : 0 < b) (h1 : b < 180) : 0 < sin (toRad b) := by
  have := pi_pos
  unfold toRad
  apply sin_pos_of_pos_of_lt_pi
  · positivity
  · nlinarith [show b * (π / 180) = b / 180 * π by ring, show b / 180 < 1 by linarith]

/-- On the north side the power is `exp (-τ / sin B)`, and more power means less optical depth. -/
theorem C99_tau_partial {b p : ℝ} (h0 : 0 < b) (h1 : b < 180) (hp : 0 < p) :
    exp (-tauVal b p / sin (toRad b)) = p ∧ (0 ≤ tauVal b p ↔ p ≤ 1) ∧ ∀ p', 0 < p' → (tauVal b p' < tauVal b p ↔ p < p') := by
  have hs := sin_pos_deg h0 h1
  unfold tauVal
  refine ⟨?_, ?_, fun p' hp' => ?_⟩
  · rw [show -(-sin (toRad b) * log p) / sin (toRad b) = log p by field_simp, exp_log hp]
  · rw [← log_nonpos_iff hp.le]
    constructor
    · intro h
      by_contra hc
      nlinarith [mul_pos hs (not_le.mp hc)]
    · intro h
      nlinarith [mul_nonneg hs.le (neg_nonneg.mpr h)]
  · rw [← log_lt_log_iff hp hp']
    constructor
    · intro h
      by_contra hc
      nlinarith [mul_nonneg hs.le (sub_nonneg.mpr (not_lt.mp hc))]
    · intro h
      nlinarith [mul_pos hs (sub_pos.mpr h)]

example : 0 < tauVal 30 (1 / 2) := by
  have h := (C99_tau_partial (b := 30) (p := 1) (by norm_num) (by norm_num) (by norm_num)).2.2 (1 / 2) (by norm_num)
  have h2 := (C99_tau_partial (b := 30) (p := 1 / 2) (by norm_num) (by norm_num) (by norm_num)).2.2 1 (by norm_num)
  have : tauVal 30 1 = 0 := by unfold tauVal; rw [log_one, mul_zero]
  rw [this] at h2
  exact h2.mpr (by norm_num)

/-- On the south side, where the opening angle is negative, the optical depth of every absorbing row is negative. -/
theorem C99_south_false : ¬ ∀ b p : ℝ, b ≠ 0 → |b| ≤ 90 → 0 < p → p < 1 → 0 < tauVal b p := by
  intro h
  have h1 := h (-30) (1 / 2) (by norm_num) (by norm_num [abs_of_neg]) (by norm_num) (by norm_num)
  have h2 : 0 < sin (toRad 30) := sin_pos_deg (by norm_num) (by norm_num)
  have h3 : log (1 / 2) < 0 := log_neg (by norm_num) (by norm_num)
  unfold tauVal at h1
  rw [show toRad (-30) = -toRad 30 by unfold toRad; ring, sin_neg] at h1
  nlinarith

/-- At the threshold the power is the constant over two times the noise power of one resolution element; on the north side a row is
deeper than the threshold exactly if it has less power than that. -/
theorem C99_threshold {b v s n res c : ℝ} (h0 : b ≠ 0) (h1 : |b| < 180) (hv : v ≠ 0) (hs : 0 < s) (hn : 0 < n) (hr : 0 < res)
    (hc : 0 < c) :
    exp (-tauThresh b v s n res c / sin (toRad |b|)) = c / 2 * (|v| * n / (s * res)) ∧
    (0 < b → ∀ p, 0 < p → (tauThresh b v s n res c < tauVal b p ↔ p < c / 2 * (|v| * n / (s * res)))) := by
  have hb : 0 < |b| := abs_pos.mpr h0
  have hsin := sin_pos_deg hb h1
  have hab : |toRad b| = toRad |b| := by
    unfold toRad
    rw [abs_mul, abs_of_pos (show 0 < π / 180 by have := pi_pos; positivity)]
  have hv' : 0 < |v| := abs_pos.mpr hv
  have he : 0.5 * c * |v / res| / (s / n) = c / 2 * (|v| * n / (s * res)) := by
    rw [abs_div, abs_of_pos hr]
    field_simp
    norm_num
  have hp : 0 < c / 2 * (|v| * n / (s * res)) := by positivity
  have ht : tauThresh b v s n res c = -sin (toRad |b|) * log (c / 2 * (|v| * n / (s * res))) := by
    unfold tauThresh
    simp only
    rw [he, hab]
  rw [ht]
  refine ⟨?_, fun hb0 p hp0 => ?_⟩
  · rw [show -(-sin (toRad |b|) * log (c / 2 * (|v| * n / (s * res)))) / sin (toRad |b|) = log (c / 2 * (|v| * n / (s * res))) by
      field_simp, exp_log hp]
  · have := (C99_tau_partial hb h1 hp0).2.2 _ hp
    rw [abs_of_pos hb0] at this ⊢
    exact this

example : tauThresh 30 8 100 1 (1 / 2) 2 < tauVal 30 (1 / 8) ∧ tauVal 30 (1 / 4) < tauThresh 30 8 100 1 (1 / 2) 1 := by
  have h := (C99_threshold (b := 30) (v := 8) (s := 100) (n := 1) (res := 1 / 2) (c := 2) (by norm_num) (by norm_num [abs_of_pos])
    (by norm_num) (by norm_num) (by norm_num) (by norm_num) (by norm_num)).2 (by norm_num) (1 / 8) (by norm_num)
  refine ⟨h.mpr (by norm_num [abs_of_pos]), ?_⟩
  have e : tauThresh 30 8 100 1 (1 / 2) 1 = tauVal 30 (2 / 25) := by
    unfold tauThresh tauVal
    simp only
    rw [abs_of_pos (show 0 < toRad 30 by unfold toRad; have := pi_pos; positivity)]
    norm_num [abs_of_pos]
  rw [e]
  exact ((C99_tau_partial (b := 30) (p := 2 / 25) (by norm_num) (by norm_num) (by norm_num)).2.2 (1 / 4) (by norm_num)).mpr (by norm_num)

/-- The threshold of a profile is lower than the one of its resolution, twice its spacing, by `sin |B| * log 2`. -/
theorem C99_resolution_false : ¬ ∀ b v s n dr : ℝ, b ≠ 0 → |b| ≤ 90 → v ≠ 0 → 0 < s → 0 < n → 0 < dr →
    exp (-dlpThresh b v s n dr / sin (toRad |b|)) = 2.41 / 2 * (|v| * n / (s * (2 * dr))) := by
  intro h
  have h1 := h 30 1 1 1 1 (by norm_num) (by norm_num [abs_of_pos]) (by norm_num) (by norm_num) (by norm_num) (by norm_num)
  have h2 := (C99_threshold (b := 30) (v := 1) (s := 1) (n := 1) (res := 1) (c := 2.41) (by norm_num) (by norm_num [abs_of_pos])
    (by norm_num) (by norm_num) (by norm_num) (by norm_num) (by norm_num)).1
  unfold dlpThresh at h1
  rw [h1] at h2
  norm_num at h2

theorem getD_within {α : Type} {l : List α} (d : α) {i : Nat} (h : i < l.length) : l.getD i d = l[i] := by
  simp [h]

theorem nanmean_const {l : List ℚ} {c : ℚ} (h : l ≠ []) (hc : ∀ x ∈ l, x = c) : nanmean l = some c := by
  have hl : l.length ≠ 0 := fun e => h (List.length_eq_zero_iff.mp e)
  unfold nanmean
  rw [if_neg hl, List.eq_replicate_of_mem hc, List.sum_replicate, List.length_replicate, nsmul_eq_mul,
    mul_div_cancel_left₀ _ (by exact_mod_cast hl)]

theorem nanmean_some {l : List ℚ} (h : l ≠ []) : nanmean l = some (l.sum / l.length) := by
  unfold nanmean
  rw [if_neg fun e => h (List.length_eq_zero_iff.mp e)]

theorem mapM_some {α β : Type} (f : α → Option β) (g : α → β) (l : List α) (h : ∀ a ∈ l, f a = some (g a)) :
    l.mapM f = some (l.map g) := by
  induction l with
  | nil => rfl
  | cons a l ih =>
    rw [List.mapM_cons, h a (by simp), ih fun b hb => h b (by simp [hb])]
    rfl

/-- Noise that has the power `N` at all frequencies between 200 and 450 Hz from the carrier, within 1000 s of the ends of the
record, is found to have it, whatever there is at other frequencies or times. -/
theorem C99_noise {spm freq time : List ℚ} {sxx : List (List ℚ)} {N : ℚ} (hl : freq.length = sxx.length)
    (hN : ∀ j, j < freq.length → 200 < |freq.getD j 0| → |freq.getD j 0| < 450 → ∀ i, i < time.length →
      (time.getD i 0 < 1000 ∨ spm.getD (spm.length - 1) 0 - 1000 < spm.getD 0 0 + time.getD i 0) → (sxx.getD j []).getD i 0 = N)
    (hf : ∃ j, j < freq.length ∧ 200 < |freq.getD j 0| ∧ |freq.getD j 0| < 450)
    (ht : ∃ i, i < time.length ∧ (time.getD i 0 < 1000 ∨ spm.getD (spm.length - 1) 0 - 1000 < spm.getD 0 0 + time.getD i 0)) :
    findNoise spm freq time sxx = some N := by
  have band : ∀ x : ℚ, (decide (-450 < x ∧ x < -200) || decide (200 < x ∧ x < 450)) = true ↔ 200 < |x| ∧ |x| < 450 := by
    intro x
    simp only [Bool.or_eq_true, decide_eq_true_eq]
    rcases abs_cases x with ⟨e, s⟩ | ⟨e, s⟩ <;> rw [e] <;> constructor
    · rintro (⟨a, b⟩ | h)
      · linarith
      · exact h
    · exact Or.inr
    · rintro (⟨a, b⟩ | ⟨a, b⟩) <;> constructor <;> linarith
    · rintro ⟨a, b⟩
      exact Or.inl ⟨by linarith, by linarith⟩
  unfold findNoise
  simp only [List.length_map]
  generalize hrows : ((freq.zip sxx).filter fun p => decide (-450 < p.1 ∧ p.1 < -200) || decide (200 < p.1 ∧ p.1 < 450)).map (·.2) = rows
  have hmem : ∀ r, r ∈ rows ↔ ∃ j, j < freq.length ∧ 200 < |freq.getD j 0| ∧ |freq.getD j 0| < 450 ∧ r = sxx.getD j [] := by
    intro r
    rw [← hrows, List.mem_map]
    constructor
    · rintro ⟨⟨f, s⟩, hp, rfl⟩
      obtain ⟨hp, hb⟩ := List.mem_filter.mp hp
      obtain ⟨j, hj, e⟩ := List.mem_iff_getElem.mp hp
      rw [List.length_zip] at hj
      rw [List.getElem_zip] at e
      obtain ⟨rfl, rfl⟩ := Prod.mk.inj e
      refine ⟨j, by omega, ?_⟩
      rw [getD_within _ (by omega), getD_within _ (by omega)]
      exact ⟨((band _).mp hb).1, ((band _).mp hb).2, rfl⟩
    · rintro ⟨j, hj, h1, h2, rfl⟩
      refine ⟨(freq.getD j 0, sxx.getD j []), List.mem_filter.mpr ⟨?_, (band _).mpr ⟨h1, h2⟩⟩, rfl⟩
      refine List.mem_iff_getElem.mpr ⟨j, by rw [List.length_zip]; omega, ?_⟩
      rw [List.getElem_zip, getD_within _ hj, getD_within _ (by omega)]
  have hne : rows ≠ [] := by
    obtain ⟨j, hj, h1, h2⟩ := hf
    intro e
    have := (hmem (sxx.getD j [])).mpr ⟨j, hj, h1, h2, rfl⟩
    rw [e] at this
    cases this
  have hne' : ∀ i : Nat, (rows.map fun r => r.getD i 0) ≠ [] := fun i e => hne (List.map_eq_nil_iff.mp e)
  rw [mapM_some _ _ _ fun i _ => nanmean_some (hne' i)]
  simp only [Option.bind_eq_bind, Option.bind_some]
  have row : ∀ i, i < time.length → (time.getD i 0 < 1000 ∨ spm.getD (spm.length - 1) 0 - 1000 < spm.getD 0 0 + time.getD i 0) →
      (rows.map fun r => r.getD i 0).sum / ((rows.map fun r => r.getD i 0).length : ℚ) = N := by
    intro i hi hw
    have hm := nanmean_const (l := rows.map fun r => r.getD i 0) (c := N) (hne' i) (by
      intro x hx
      obtain ⟨r, hr, rfl⟩ := List.mem_map.mp hx
      obtain ⟨j, hj, h1, h2, rfl⟩ := (hmem r).mp hr
      exact hN j hj h1 h2 i hi hw)
    rw [nanmean_some (hne' i)] at hm
    exact Option.some.inj hm
  apply nanmean_const
  · obtain ⟨i, hi, hw⟩ := ht
    intro e
    have e := List.filter_eq_nil_iff.mp (List.map_eq_nil_iff.mp e)
    refine e (time.getD i 0 + spm.getD 0 0, (rows.map fun r => r.getD i 0).sum / ((rows.map fun r => r.getD i 0).length : ℚ)) ?_ ?_
    · refine List.mem_iff_getElem.mpr ⟨i, by simp [hi], ?_⟩
      rw [List.getElem_zip, List.getElem_map, List.getElem_map, List.getElem_range, getD_within _ hi]
    · simp only [Bool.or_eq_true, decide_eq_true_eq]
      rcases hw with hw | hw
      · exact Or.inl (by linarith)
      · exact Or.inr (by linarith)
  · intro x hx
    obtain ⟨⟨t, y⟩, hp, rfl⟩ := List.mem_map.mp hx
    obtain ⟨hp, hb⟩ := List.mem_filter.mp hp
    obtain ⟨i, hi, e⟩ := List.mem_iff_getElem.mp hp
    have hi : i < time.length := by simpa using hi
    rw [List.getElem_zip, List.getElem_map, List.getElem_map, List.getElem_range] at e
    obtain ⟨rfl, rfl⟩ := Prod.mk.inj e
    refine row i hi ?_
    simp only [Bool.or_eq_true, decide_eq_true_eq] at hb
    rw [getD_within _ hi]
    rcases hb with hb | hb
    · exact Or.inl (by linarith)
    · exact Or.inr (by linarith)

/-- The carrier at 0 Hz and the rings in the middle of the record do not count. -/
example : findNoise [0, 5000] [0, 300, -300] [1, 2500, 4900] [[9, 1, 9], [2, 7, 2], [2, 8, 2]] = some 2 := by decide +kernel

/-- A record shorter than 2000 s is used whole, so that the rings are taken for noise. -/
theorem C99_short_false : ¬ ∀ (spm freq time : List ℚ) (sxx : List (List ℚ)) (N : ℚ), freq.length = sxx.length →
    (∀ j, j < freq.length → 200 < |freq.getD j 0| → |freq.getD j 0| < 450 → ∀ i, i < time.length → (i = 0 ∨ i + 1 = time.length) →
      (sxx.getD j []).getD i 0 = N) → (∃ j, j < freq.length ∧ 200 < |freq.getD j 0| ∧ |freq.getD j 0| < 450) → time ≠ [] →
    findNoise spm freq time sxx = some N := by
  intro h
  have := h [0, 1500] [300] [1, 700, 1400] [[2, 8, 2]] 2 rfl
    (by
      intro j hj _ _ i hi hi'
      have hj : j = 0 := by simpa using hj
      subst hj
      have : i = 0 ∨ i = 2 := by simp at hi hi'; omega
      rcases this with rfl | rfl <;> rfl)
    ⟨0, by simp, by norm_num [abs_of_pos], by norm_num [abs_of_pos]⟩ (by simp)
  revert this
  decide +kernel

end Verif.Cal
