import Verif.Model.Disconts
import Verif.Props.C100

/-!
# C107: discontinuities of the frequency offset
-/
namespace Verif.Cal
open Verif.Rsr Verif.Geo Verif.Geo.Spec

theorem centdiff2_length {x f : List ℚ} (h : 2 ≤ x.length) : (centdiff2 x f).length = x.length := by
  unfold centdiff2
  simp
  omega

theorem centdiff2_inner {x f : List ℚ} {i : Nat} (h : i + 2 < x.length) : (centdiff2 x f).getD (i + 1) 0 =
    (f.getD (i + 2) 0 - 2 * f.getD (i + 1) 0 + f.getD i 0) / ((x.getD (i + 1) 0 - x.getD i 0) * (x.getD (i + 2) 0 - x.getD (i + 1) 0)) := by
  unfold centdiff2
  rw [List.append_assoc, List.singleton_append, List.getD_cons_succ, List.getD_eq_getElem?_getD, List.getElem?_append_left (by simp; omega)]
  simp [show i < x.length - 2 by omega]

theorem centdiff2_ends {x f : List ℚ} (h : 2 ≤ x.length) : (centdiff2 x f).getD 0 0 = 0 ∧ (centdiff2 x f).getD (x.length - 1) 0 = 0 := by
  constructor
  · unfold centdiff2
    rfl
  · unfold centdiff2
    rw [List.getD_eq_getElem?_getD, List.getElem?_append_right (by simp; omega)]
    simp only [List.length_append, List.length_cons, List.length_nil, List.length_map, List.length_range]
    rw [show x.length - 1 - (0 + 1 + (x.length - 2)) = 0 by omega]
    rfl

/-- For equally spaced times the second derivative of a parabola is found exactly. -/
theorem C107_parabola {x f : List ℚ} {x0 h a b c : ℚ} (hh : h ≠ 0)
    (hx : ∀ i, i < x.length → x.getD i 0 = x0 + h * i)
    (hf : ∀ i, i < x.length → f.getD i 0 = a * (x.getD i 0) ^ 2 + b * x.getD i 0 + c) {i : Nat} (h1 : 1 ≤ i) (h2 : i + 1 < x.length) :
    (centdiff2 x f).getD i 0 = 2 * a := by
  obtain ⟨j, rfl⟩ : ∃ j, i = j + 1 := ⟨i - 1, by omega⟩
  rw [centdiff2_inner h2, hf j (by omega), hf (j + 1) (by omega), hf (j + 2) (by omega), hx j (by omega), hx (j + 1) (by omega), hx (j + 2) (by omega)]
  push_cast
  rw [div_eq_iff]
  · ring
  · have : (x0 + h * (↑j + 1) - (x0 + h * ↑j)) * (x0 + h * (↑j + 2) - (x0 + h * (↑j + 1))) = h * h := by ring
    rw [this]
    exact mul_ne_zero hh hh

example : centdiff2 [1, 2, 3, 4, 5] [3, 12, 27, 48, 75] = [0, 6, 6, 6, 0] := by decide +kernel

/-- Where times are missing even a straight line has a second derivative. -/
theorem C107_gap_false : ¬ ∀ (x f : List ℚ) (s : ℚ), Growing x → f = x.map (s * ·) → ∀ i, (centdiff2 x f).getD i 0 = 0 := by
  intro h
  have := h [1, 2, 5] [1, 2, 5] 1 (by unfold Growing; decide +kernel) (by decide +kernel) 1
  revert this
  decide +kernel

theorem abs_getD (l : List ℚ) (i : Nat) : (l.map fun z => |z|).getD i 0 = |l.getD i 0| := by
  simp only [List.getD_eq_getElem?_getD, List.getElem?_map]
  cases l[i]? <;> simp

/-- Equally spaced data with a change of slope at the datum `k` and nothing else have this discontinuity, provided that at least ten
data lie on both sides, that neighbours differ by at least `df` and that it is not in the B ring. -/
theorem C107_cusp_partial {x rho f : List ℚ} {x0 h c s1 s2 df : ℚ} {k : Nat} (hl : f.length = x.length) (hh : h ≠ 0)
    (hx : ∀ i, i < x.length → x.getD i 0 = x0 + h * i)
    (hf1 : ∀ i, i ≤ k → f.getD i 0 = c + s1 * ((i : ℚ) - k)) (hf2 : ∀ i, k ≤ i → i < x.length → f.getD i 0 = c + s2 * ((i : ℚ) - k))
    (hs : s1 ≠ s2) (hk1 : 10 ≤ k) (hk2 : k + 11 ≤ x.length) (hd : df ≤ |s1| ∨ df ≤ |s2|)
    (hr : rho.getD k 0 ≤ 91000 ∨ 119000 ≤ rho.getD k 0) : getDisconts x rho f df = .ok [0, (k : ℤ), -1] := by
  have hv : ∀ i, i < x.length → (centdiff2 x f).getD i 0 = if i = k then (s2 - s1) / (h * h) else 0 := by
    intro i hi
    by_cases h0 : i = 0
    · subst h0
      rw [(centdiff2_ends (by omega)).1, if_neg (by omega)]
    by_cases hn : i = x.length - 1
    · rw [hn, (centdiff2_ends (by omega)).2, if_neg (by omega)]
    obtain ⟨j, rfl⟩ : ∃ j, i = j + 1 := ⟨i - 1, by omega⟩
    rw [centdiff2_inner (by omega), hx j (by omega), hx (j + 1) (by omega), hx (j + 2) (by omega)]
    have : (x0 + h * ((j + 1 : ℕ) : ℚ) - (x0 + h * (j : ℚ))) * (x0 + h * ((j + 2 : ℕ) : ℚ) - (x0 + h * ((j + 1 : ℕ) : ℚ))) = h * h := by
      push_cast
      ring
    rw [this]
    rcases lt_trichotomy (j + 1) k with hj | hj | hj
    · rw [if_neg (by omega), hf1 j (by omega), hf1 (j + 1) (by omega), hf1 (j + 2) (by omega)]
      push_cast
      rw [div_eq_zero_iff]
      left
      ring
    · rw [if_pos hj, hf1 j (by omega), hf1 (j + 1) (by omega), hf2 (j + 2) (by omega) (by omega), ← hj]
      push_cast
      ring
    · rw [if_neg (by omega), hf2 j (by omega) (by omega), hf2 (j + 1) (by omega) (by omega), hf2 (j + 2) (by omega) (by omega)]
      push_cast
      rw [div_eq_zero_iff]
      left
      ring
  set D := |(s2 - s1) / (h * h)| with hD
  have hD0 : 0 < D := abs_pos.mpr (div_ne_zero (sub_ne_zero.mpr hs.symm) (mul_ne_zero hh hh))
  set d := (centdiff2 x f).map fun z => |z| with hd'
  have dl : d.length = x.length := by rw [hd', List.length_map, centdiff2_length (by omega)]
  have dv : ∀ i, i < x.length → d.getD i 0 = if i = k then D else 0 := by
    intro i hi
    rw [hd', abs_getD, hv i hi]
    split
    · rfl
    · exact abs_zero
  obtain ⟨top, t1, t2, t3⟩ := pyMaxL_spec d (by intro h; rw [h] at dl; simp at dl; omega)
  have ht : top = D := by
    obtain ⟨i, hi, rfl⟩ := List.getElem_of_mem t2
    have a := dv i (by omega)
    have b := t3 (d.getD k 0) (by rw [getD_at (show k < d.length by omega)]; exact List.getElem_mem _)
    rw [dv k (by omega), if_pos rfl] at b
    rw [getD_at hi] at a
    rw [a] at b ⊢
    split at b
    · rename_i e
      rw [if_pos e]
    · linarith
  have hrel : (argrelmax d).filter (fun i => decide (top / (3 / 2) < d.getD i 0)) = [k] := by
    unfold argrelmax
    rw [List.filter_filter, dl]
    have : ∀ i ∈ List.range x.length, (decide (top / (3 / 2) < d.getD i 0) &&
        decide (0 < i ∧ i + 1 < x.length ∧ d.getD (i - 1) 0 < d.getD i 0 ∧ d.getD (i + 1) 0 < d.getD i 0)) = decide (i = k) := by
      intro i hi
      have hi := List.mem_range.mp hi
      rw [dv i hi, ht]
      by_cases hik : i = k
      · subst hik
        rw [dv (i - 1) (by omega), dv (i + 1) (by omega)]
        simp only [if_pos, if_neg (show ¬ i - 1 = i by omega), if_neg (show ¬ i + 1 = i by omega)]
        simp
        exact ⟨by linarith, by omega, by omega, hD0⟩
      · simp only [if_neg hik, decide_eq_false hik, Bool.and_eq_false_iff, decide_eq_false_iff_not]
        left
        have : 0 < D / (3 / 2) := by positivity
        linarith
    rw [List.filter_congr this]
    have : x.length = k + (1 + (x.length - k - 1)) := by omega
    rw [this, List.range_add, List.range_add, List.filter_append]
    rw [List.filter_eq_nil_iff.mpr (fun i hi => by have := List.mem_range.mp hi; simp; omega)]
    simp [List.range_succ, List.filter_map]
    intro i _
    omega
  unfold getDisconts
  simp only [← hd', t1, bind, Except.bind, hrel]
  have hsp : spurious rho f df [0, (k : ℤ), -1] 1 = false := by
    unfold spurious
    simp only [decide_eq_false_iff_not, not_or]
    simp only [List.getD_cons_succ, List.getD_cons_zero, Nat.sub_self, Int.toNat_natCast]
    refine ⟨?_, ?_, ?_, ?_⟩
    · unfold sliceLen slicePos
      simp [hl]
      omega
    · unfold sliceLen slicePos
      simp [hl]
      omega
    · rintro ⟨a, b, -⟩
      have e0 := hf1 k le_rfl
      have e1 := hf1 (k - 1) (by omega)
      have e2 := hf2 (k + 1) (by omega) (by omega)
      have cast : ((k - 1 : ℕ) : ℚ) = (k : ℚ) - 1 := by
        rw [Nat.cast_sub (by omega)]
        norm_num
      rw [e0, e1, cast] at a
      rw [e0, e2] at b
      push_cast at b
      ring_nf at a b
      rcases hd with h | h <;> linarith
    · rintro ⟨a, b⟩
      rcases hr with h | h <;> linarith
  have : ([0] ++ [k].map (fun i : Nat => (i : ℤ)) ++ [-1] : List ℤ) = [0, (k : ℤ), -1] := rfl
  rw [this]
  have hr2 : (List.range [0, (k : ℤ), -1].length).filter (fun i => decide (1 ≤ i ∧ i + 1 < [0, (k : ℤ), -1].length) &&
      spurious rho f df [0, (k : ℤ), -1] i) = [] := by
    rw [List.filter_eq_nil_iff]
    intro i hi
    simp only [List.length_cons, List.length_nil, List.mem_range] at hi
    simp only [List.length_cons, List.length_nil]
    match i, hi with
    | 0, _ => simp
    | 1, _ => simp [hsp]
    | 2, _ => simp
  rw [hr2]
  rfl

/-- A straight line to the 11th datum, then a steeper one. -/
example : getDisconts ((List.range 22).map fun i : Nat => (i : ℚ)) (List.replicate 22 80000)
    ((List.range 22).map fun i : Nat => if i ≤ 10 then (i : ℚ) / 100 else 1 / 10 + ((i : ℚ) - 10)) (1 / 10) = .ok [0, 10, -1] := by
  decide +kernel

/-- A jump of any height, on a straight line of any slope, is not found: the second derivative has the same amount on both sides of
it, so that neither is a strict maximum. -/
theorem C107_jump_false {x rho f : List ℚ} {x0 h a s J df : ℚ} {k : Nat} (_hh : h ≠ 0)
    (hx : ∀ i, i < x.length → x.getD i 0 = x0 + h * i)
    (hf : ∀ i, i < x.length → f.getD i 0 = a + s * i + if i < k then 0 else J) (hk1 : 2 ≤ k) (hk2 : k + 1 < x.length) :
    getDisconts x rho f df = .ok [0, -1] := by
  have hv : ∀ i, i < x.length → (centdiff2 x f).getD i 0 = if i + 1 = k then J / (h * h) else if i = k then - (J / (h * h)) else 0 := by
    intro i hi
    by_cases h0 : i = 0
    · subst h0
      rw [(centdiff2_ends (by omega)).1, if_neg (by omega), if_neg (by omega)]
    by_cases hn : i = x.length - 1
    · rw [hn, (centdiff2_ends (by omega)).2, if_neg (by omega), if_neg (by omega)]
    obtain ⟨j, rfl⟩ : ∃ j, i = j + 1 := ⟨i - 1, by omega⟩
    rw [centdiff2_inner (by omega), hx j (by omega), hx (j + 1) (by omega), hx (j + 2) (by omega), hf j (by omega), hf (j + 1) (by omega),
      hf (j + 2) (by omega)]
    have : (x0 + h * ((j + 1 : ℕ) : ℚ) - (x0 + h * (j : ℚ))) * (x0 + h * ((j + 2 : ℕ) : ℚ) - (x0 + h * ((j + 1 : ℕ) : ℚ))) = h * h := by
      push_cast
      ring
    rw [this]
    by_cases c1 : j + 1 + 1 = k
    · rw [if_pos c1, if_neg (by omega), if_pos (by omega), if_pos (by omega)]
      push_cast
      ring
    by_cases c2 : j + 1 = k
    · rw [if_neg c1, if_pos c2, if_neg (by omega), if_neg (by omega), if_pos (by omega)]
      push_cast
      ring
    rw [if_neg c1, if_neg c2]
    rcases lt_or_ge (j + 2) k with c | c
    · rw [if_pos c, if_pos (by omega), if_pos (by omega), div_eq_zero_iff]
      left
      push_cast
      ring
    · rw [if_neg (by omega), if_neg (by omega), if_neg (by omega), div_eq_zero_iff]
      left
      push_cast
      ring
  set D := |J / (h * h)| with hD
  have hD0 : 0 ≤ D := abs_nonneg _
  set d := (centdiff2 x f).map fun z => |z| with hd'
  have dl : d.length = x.length := by rw [hd', List.length_map, centdiff2_length (by omega)]
  have dv : ∀ i, i < x.length → d.getD i 0 = if i + 1 = k ∨ i = k then D else 0 := by
    intro i hi
    rw [hd', abs_getD, hv i hi]
    by_cases c1 : i + 1 = k
    · rw [if_pos c1, if_pos (.inl c1)]
    by_cases c2 : i = k
    · rw [if_neg c1, if_pos c2, if_pos (.inr c2), abs_neg]
    · rw [if_neg c1, if_neg c2, if_neg (by tauto), abs_zero]
  have hrel : argrelmax d = [] := by
    unfold argrelmax
    rw [List.filter_eq_nil_iff, dl]
    intro i hi
    have hi := List.mem_range.mp hi
    rw [decide_eq_true_iff]
    rintro ⟨i1, i2, i3, i4⟩
    rw [dv (i - 1) (by omega), dv i hi] at i3
    rw [dv (i + 1) (by omega), dv i hi] at i4
    by_cases c1 : i + 1 = k
    · rw [if_pos (by omega), if_pos (by omega)] at i4
      linarith
    by_cases c2 : i = k
    · rw [if_pos (by omega), if_pos (by omega)] at i3
      linarith
    · rw [if_neg (show ¬ (i + 1 = k ∨ i = k) by tauto)] at i4
      split at i4 <;> linarith
  obtain ⟨top, t1, -⟩ := pyMaxL_spec d (by intro h; rw [h] at dl; simp at dl; omega)
  unfold getDisconts
  simp only [← hd', t1, bind, Except.bind, hrel]
  rfl

/-- 22 data with a jump of 50 Hz in the middle. -/
example : getDisconts ((List.range 22).map fun i : Nat => (i : ℚ)) (List.replicate 22 80000)
    ((List.range 22).map fun i : Nat => if i < 11 then 0 else 50) (1 / 10) = .ok [0, -1] := by
  decide +kernel

theorem foldl_erase {l : List ℤ} (h : l.Nodup) (r : List ℤ) : r.foldl List.erase l = l.filter fun z => decide (z ∉ r) := by
  induction r generalizing l with
  | nil => simp
  | cons a r ih =>
    rw [List.foldl_cons, ih (h.erase a), h.erase_eq_filter, List.filter_filter]
    apply List.filter_congr
    intro z _
    simp only [List.mem_cons, not_or, bne]
    by_cases h1 : z = a <;> by_cases h2 : z ∈ r <;> simp [h1, h2]

/-- The marks that are left after those flagged have been removed. -/
theorem discont_keep {rho f : List ℚ} {df : ℚ} {L : List Nat} (Lp : L.Pairwise (· < ·)) (Lm : ∀ k ∈ L, 0 < k ∧ k + 1 < f.length)
    {ds : List ℤ} (hds : ds = [0] ++ L.map (fun i : Nat => (i : ℤ)) ++ [-1]) {rmv : List ℤ}
    (hrmv : rmv = ((List.range ds.length).filter fun i => decide (1 ≤ i ∧ i + 1 < ds.length) && spurious rho f df ds i).map
      fun i : Nat => ds.getD i 0) :
    rmv.foldl List.erase ds = [0] ++ (L.filter fun k : Nat => decide ((k : ℤ) ∉ rmv)).map (fun i : Nat => (i : ℤ)) ++ [-1] ∧
    ∀ j (hj : j < L.length), (L[j] : ℤ) ∉ rmv → 10 ≤ L[j] ∧ L[j] + 11 ≤ f.length ∧ (∀ i (hi : i < j), L[i] + 10 ≤ L[j]) ∧
      (rho.getD L[j] 0 ≤ 91000 ∨ 119000 ≤ rho.getD L[j] 0) ∧
      (df ≤ |f.getD L[j] 0 - f.getD (L[j] - 1) 0| ∨ df ≤ |f.getD (L[j] + 1) 0 - f.getD L[j] 0| ∨
        df ≤ |f.getD (L[j] + 1) 0 - f.getD (L[j] - 1) 0|) := by
  have dslen : ds.length = L.length + 2 := by simp [hds]
  have dsin : ∀ j (hj : j < L.length), ds.getD (j + 1) 0 = (L[j] : ℤ) := by
    intro j hj
    rw [hds, List.append_assoc, List.singleton_append, List.getD_cons_succ, List.getD_eq_getElem?_getD,
      List.getElem?_append_left (by simpa using hj)]
    simp [hj]
  have ds0 : ds.getD 0 0 = 0 := by rw [hds]; rfl
  have dsend : ds.getD (L.length + 1) 0 = -1 := by
    rw [hds, List.append_assoc, List.singleton_append, List.getD_cons_succ, List.getD_eq_getElem?_getD,
      List.getElem?_append_right (by simp)]
    simp
  have dsnd : ds.Nodup := by
    rw [hds, List.append_assoc, List.singleton_append, List.nodup_cons]
    constructor
    · intro hm
      rw [List.mem_append] at hm
      rcases hm with hm | hm
      · obtain ⟨k, k1, k2⟩ := List.mem_map.mp hm
        have := (Lm k k1).1
        omega
      · simp at hm
    · rw [List.nodup_append]
      refine ⟨?_, by simp, ?_⟩
      · refine List.Nodup.map (fun a b hab => by exact_mod_cast hab) (Lp.imp fun h => Nat.ne_of_lt h)
      · intro a ha b hb
        obtain ⟨k, -, rfl⟩ := List.mem_map.mp ha
        simp only [List.mem_singleton] at hb
        omega
  have rm : ∀ z ∈ rmv, ∃ k ∈ L, z = (k : ℤ) := by
    intro z hz
    rw [hrmv] at hz
    obtain ⟨i, i1, rfl⟩ := List.mem_map.mp hz
    rw [List.mem_filter, Bool.and_eq_true, decide_eq_true_iff] at i1
    obtain ⟨j, rfl⟩ : ∃ j, i = j + 1 := ⟨i - 1, by omega⟩
    have hj : j < L.length := by omega
    exact ⟨L[j], List.getElem_mem hj, dsin j hj⟩
  have hsp : ∀ j (hj : j < L.length), (L[j] : ℤ) ∉ rmv → spurious rho f df ds (j + 1) = false := by
    intro j hj hn
    by_contra hc
    apply hn
    rw [hrmv, List.mem_map]
    refine ⟨j + 1, List.mem_filter.mpr ⟨List.mem_range.mpr (by omega), ?_⟩, dsin j hj⟩
    rw [Bool.and_eq_true, decide_eq_true_iff]
    exact ⟨by omega, by simpa using hc⟩
  constructor
  · rw [foldl_erase dsnd]
    conv_lhs => rw [hds]
    rw [List.filter_append, List.filter_append, List.filter_map]
    congr 1
    · congr 1
      rw [List.filter_eq_self]
      intro z hz
      rw [List.mem_singleton] at hz
      subst hz
      rw [decide_eq_true_iff]
      intro hz
      obtain ⟨k, k1, k2⟩ := rm 0 hz
      have := (Lm k k1).1
      omega
    · rw [List.filter_eq_self]
      intro z hz
      rw [List.mem_singleton] at hz
      subst hz
      rw [decide_eq_true_iff]
      intro hz
      obtain ⟨k, k1, k2⟩ := rm (-1) hz
      omega
  · intro j hj hn
    have hs := hsp j hj hn
    have hin := Lm L[j] (List.getElem_mem hj)
    unfold spurious at hs
    simp only [decide_eq_false_iff_not, not_or, dsin j hj, Int.toNat_natCast, Nat.add_sub_cancel, not_and_or, not_lt] at hs
    obtain ⟨s1, s2, s3, s4⟩ := hs
    have hpos : slicePos f.length (L[j] : ℤ) = L[j] := by
      unfold slicePos
      rw [if_neg (by omega), min_eq_left (by omega)]
    unfold sliceLen at s1 s2
    rw [hpos] at s1 s2
    have mono : ∀ a b (ha : a < L.length) (hb : b < L.length), a < b → L[a] < L[b] := fun a b ha hb hab =>
      List.pairwise_iff_getElem.mp Lp a b ha hb hab
    have hprev : ∀ i (hi : i < j), L[i] + 10 ≤ L[j] := by
      intro i hi
      obtain ⟨j', rfl⟩ : ∃ j', j = j' + 1 := ⟨j - 1, by omega⟩
      have hj' : j' < L.length := by omega
      rw [dsin j' hj'] at s1
      have hb := Lm L[j'] (List.getElem_mem hj')
      have : slicePos f.length (L[j'] : ℤ) = L[j'] := by
        unfold slicePos
        rw [if_neg (by omega), min_eq_left (by omega)]
      rw [this] at s1
      have : L[i] ≤ L[j'] := by
        rcases Nat.eq_or_lt_of_le (show i ≤ j' by omega) with rfl | hlt
        · exact le_rfl
        · exact (mono i j' (by omega) hj' hlt).le
      omega
    refine ⟨?_, ?_, hprev, s4, ?_⟩
    · rcases Nat.eq_zero_or_pos j with rfl | hp
      · rw [ds0] at s1
        have : slicePos f.length 0 = 0 := by
          unfold slicePos
          simp
        rw [this] at s1
        omega
      · have := hprev 0 hp
        omega
    · by_cases hlast : j + 1 = L.length
      · rw [hlast, dsend] at s2
        unfold slicePos at s2
        rw [if_pos (by norm_num)] at s2
        omega
      · have hj' : j + 1 < L.length := by omega
        rw [dsin (j + 1) hj'] at s2
        have hb := Lm L[j + 1] (List.getElem_mem hj')
        unfold slicePos at s2
        rw [if_neg (by omega), min_eq_left (by omega)] at s2
        omega
    · rcases s3 with h | h | h
      · exact .inl h
      · exact .inr (.inl h)
      · exact .inr (.inr h)

/-- Between the marks of the start and the end there are only data where the second derivative is a strict maximum, greater than two
thirds of any other, that differ from a neighbour or their neighbours from another by at least `df`, that are not in the B ring, and
that leave at least ten data to the next one and to both ends. -/
theorem C107_list {x rho f : List ℚ} {df : ℚ} (hl : f.length = x.length) (h2 : 2 ≤ x.length) :
    ∃ ks : List Nat, getDisconts x rho f df = .ok ([0] ++ ks.map (fun k : Nat => (k : ℤ)) ++ [-1]) ∧ ks.Pairwise (fun a b => a + 10 ≤ b) ∧
      ∀ k ∈ ks, 10 ≤ k ∧ k + 11 ≤ x.length ∧ (rho.getD k 0 ≤ 91000 ∨ 119000 ≤ rho.getD k 0) ∧
        (df ≤ |f.getD k 0 - f.getD (k - 1) 0| ∨ df ≤ |f.getD (k + 1) 0 - f.getD k 0| ∨ df ≤ |f.getD (k + 1) 0 - f.getD (k - 1) 0|) ∧
        |(centdiff2 x f).getD (k - 1) 0| < |(centdiff2 x f).getD k 0| ∧ |(centdiff2 x f).getD (k + 1) 0| < |(centdiff2 x f).getD k 0| ∧
        ∀ j, |(centdiff2 x f).getD j 0| * (2 / 3) < |(centdiff2 x f).getD k 0| := by
  set d := (centdiff2 x f).map fun z => |z| with hd'
  have dl : d.length = x.length := by rw [hd', List.length_map, centdiff2_length h2]
  obtain ⟨top, t1, -, t3⟩ := pyMaxL_spec d (by intro h; rw [h] at dl; simp at dl; omega)
  set L := (argrelmax d).filter fun i => decide (top / (3 / 2) < d.getD i 0) with hL
  have Lp : L.Pairwise (· < ·) := by
    rw [hL]
    refine List.Pairwise.filter _ ?_
    unfold argrelmax
    exact List.Pairwise.filter _ List.pairwise_lt_range
  have Lm : ∀ k ∈ L, 0 < k ∧ k + 1 < x.length ∧ d.getD (k - 1) 0 < d.getD k 0 ∧ d.getD (k + 1) 0 < d.getD k 0 ∧ top / (3 / 2) < d.getD k 0 := by
    intro k hk
    rw [hL, List.mem_filter] at hk
    obtain ⟨a, b⟩ := hk
    unfold argrelmax at a
    rw [List.mem_filter, decide_eq_true_iff, dl] at a
    exact ⟨a.2.1, a.2.2.1, a.2.2.2.1, a.2.2.2.2, by simpa using b⟩
  obtain ⟨kept, hnum⟩ := discont_keep (rho := rho) (f := f) (df := df) Lp (fun k hk => ⟨(Lm k hk).1, by have := (Lm k hk).2.1; omega⟩) rfl rfl
  refine ⟨_, by
    unfold getDisconts
    simp only [← hd', t1, bind, Except.bind, pure, Except.pure, ← hL]
    rw [kept], ?_, ?_⟩
  · rw [List.pairwise_filter]
    rw [List.pairwise_iff_getElem]
    intro i j hi hj hij h1 h2
    exact (hnum j hj (by simpa using h2)).2.2.1 i hij
  · intro k hk
    rw [List.mem_filter, decide_eq_true_iff] at hk
    obtain ⟨j, hj, rfl⟩ := List.getElem_of_mem hk.1
    obtain ⟨a1, a2, -, a4, a5⟩ := hnum j hj hk.2
    obtain ⟨b1, b2, b3, b4, b5⟩ := Lm L[j] hk.1
    rw [hd', abs_getD, abs_getD] at b3 b4
    refine ⟨a1, by omega, a4, a5, b3, b4, fun i => ?_⟩
    have hle : |(centdiff2 x f).getD i 0| ≤ top := by
      rw [← abs_getD, ← hd']
      by_cases hi : i < d.length
      · rw [getD_at hi]
        exact t3 _ (List.getElem_mem hi)
      · have : d.getD i 0 = 0 := by
          rw [List.getD_eq_getElem?_getD, List.getElem?_eq_none (by omega)]
          rfl
        rw [this]
        have h0 := t3 (d.getD 0 0) (by rw [getD_at (show 0 < d.length by omega)]; exact List.getElem_mem _)
        rw [hd', abs_getD] at h0
        exact (abs_nonneg _).trans h0
    rw [hd', abs_getD] at b5
    linarith

end Verif.Cal
