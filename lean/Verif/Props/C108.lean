import Verif.Model.OffsetFit
import Verif.Props.C106
import Verif.Props.C107

/-!
# C108: fit of the frequency offset
-/
namespace Verif.Cal
open Verif.Rsr Verif.Geo Verif.Geo.Spec Verif.Cal.Spec

theorem squares_eq_zero {c xs ys : List ℚ} : squares c xs ys = 0 ↔ ∀ p ∈ xs.zip ys, poly c p.1 = p.2 := by
  unfold squares
  induction xs generalizing ys with
  | nil => simp
  | cons x xs ih =>
    cases ys with
    | nil => simp
    | cons y ys =>
      have hn := squares_nonneg c xs ys
      unfold squares at hn
      rw [List.zipWith_cons_cons, List.sum_cons, List.zip_cons_cons]
      constructor
      · intro h p hp
        have h1 : (poly c x - y) ^ 2 = 0 := le_antisymm (by linarith [sq_nonneg (poly c x - y)]) (sq_nonneg _)
        have h2 := ih.mp (by linarith [sq_nonneg (poly c x - y)])
        rcases List.mem_cons.mp hp with rfl | hp
        · exact sub_eq_zero.mp (pow_eq_zero_iff (by norm_num) |>.mp h1)
        · exact h2 p hp
      · intro h
        rw [h (x, y) (by simp), ih.mpr fun p hp => h p (by simp [hp])]
        simp

/-- Two polynomials that agree in enough data agree everywhere. -/
theorem poly_data {c d xs ys : List ℚ} {n : Nat} (hl : xs.length = ys.length) (hc : c.length ≤ n) (hd : d.length ≤ n) (hn : xs.Nodup)
    (hx : n ≤ xs.length) (h1 : squares c xs ys = 0) (h2 : squares d xs ys = 0) (x : ℚ) : poly c x = poly d x := by
  refine poly_unique hc hd xs.toFinset (by rwa [List.toFinset_card_of_nodup hn]) (fun z hz => ?_) x
  obtain ⟨i, hi, rfl⟩ := List.getElem_of_mem (List.mem_toFinset.mp hz)
  have hm : (xs[i], ys[i]'(hl ▸ hi)) ∈ xs.zip ys := by
    rw [← List.getElem_zip (h := by rw [List.length_zip]; omega)]
    exact List.getElem_mem _
  rw [squares_eq_zero.mp h1 _ hm, squares_eq_zero.mp h2 _ hm]

/-- Data on a parabola: the order is found and the polynomial is the parabola. -/
theorem order_exact {pf : Nat → List ℚ → List ℚ → List ℚ} (hpf : LeastSquares pf) {xs ys : List ℚ} (hl : xs.length = ys.length)
    (h4 : 4 ≤ xs.length) (hn : xs.Nodup) {a b c : ℚ} (he : squares [a, b, c] xs ys = 0) {m : Nat} (hm : 2 ≤ m) :
    polyOrder pf xs ys m = .ok (if a = 0 then 1 else 2) ∧ ∀ x, poly (pf (if a = 0 then 1 else 2) xs ys) x = a * x ^ 2 + b * x + c := by
  have h0 : xs ≠ [] := by
    rintro rfl
    simp at h4
  have least : ∀ k (d : List ℚ), d.length = k + 1 → squares d xs ys = 0 → squares (pf k xs ys) xs ys = 0 := fun k d hd hz =>
    le_antisymm (hz ▸ (hpf k xs ys hl).2 d hd) (squares_nonneg _ _ _)
  have val : ∀ x, poly [a, b, c] x = a * x ^ 2 + b * x + c := by
    intro x
    simp [poly, Finset.sum_range_succ]
  by_cases ha : a = 0
  · subst ha
    rw [if_pos rfl]
    have he1 : squares [b, c] xs ys = 0 := by
      rw [← squares_zero]
      exact he
    constructor
    · obtain ⟨r, hr, h1, -⟩ := C106_order hpf hl h0 m
      have := C106_exact hpf hl h0 (d := 1) le_rfl (c := [b, c]) rfl he1 hr
      rw [hr]
      congr 1
      omega
    · intro x
      rw [← val]
      exact poly_data (n := 3) hl (by rw [(hpf 1 xs ys hl).1]; norm_num) (by simp) hn (by omega) (least 1 [b, c] rfl he1) he x
  · rw [if_neg ha]
    refine ⟨C106_quadratic hpf hl h4 hm (c := [a, b, c]) rfl he ?_, fun x => ?_⟩
    · intro l hll hz
      have := poly_data (n := 3) hl (by omega : l.length ≤ 3) (by simp : [a, b, c].length ≤ 3) hn (by omega) hz he
      obtain ⟨p, q, rfl⟩ : ∃ p q, l = [p, q] := by
        match l, hll with
        | [p, q], _ => exact ⟨p, q, rfl⟩
      have vl : ∀ x, poly [p, q] x = p * x + q := by
        intro x
        simp [poly, Finset.sum_range_succ]
      have e0 := this 0
      have e1 := this 1
      have e2 := this (-1)
      rw [vl, val] at e0 e1 e2
      apply ha
      linarith
    · rw [← val]
      exact poly_data (n := 3) hl (by rw [(hpf 2 xs ys hl).1]) (by simp) hn (by omega) (least 2 [a, b, c] rfl he) he x

theorem maskList_zip {α β : Type} : ∀ (m : List Bool) (xs : List α) (ys : List β), xs.length = ys.length →
    (maskList m xs).zip (maskList m ys) = maskList m (xs.zip ys)
  | [], _, _, _ => by simp [maskList]
  | _ :: _, [], [], _ => by simp [maskList]
  | b :: m, x :: xs, y :: ys, h => by
    have ih := maskList_zip m xs ys (by simpa using h)
    rw [List.zip_cons_cons, maskList_cons, maskList_cons, maskList_cons]
    cases b
    · simpa using ih
    · simp [ih]

theorem maskList_sublist {α : Type} : ∀ (m : List Bool) (xs : List α), (maskList m xs).Sublist xs
  | [], _ => by simp [maskList]
  | _ :: _, [] => by simp [maskList]
  | b :: m, x :: xs => by
    have ih := maskList_sublist m xs
    rw [maskList_cons]
    cases b
    · exact ih.cons x
    · exact ih.cons_cons x

theorem maskList_mem {α : Type} : ∀ (m : List Bool) (xs : List α) (a : α), a ∈ maskList m xs →
    ∃ i, ∃ h : i < xs.length, m.getD i false = true ∧ xs[i] = a
  | [], _, a, h => by simp [maskList] at h
  | _ :: _, [], a, h => by simp [maskList] at h
  | b :: m, x :: xs, a, h => by
    rw [maskList_cons] at h
    have step : a ∈ maskList m xs → ∃ i, ∃ h : i < (x :: xs).length, (b :: m).getD i false = true ∧ (x :: xs)[i] = a := by
      intro h
      obtain ⟨i, hi, h1, h2⟩ := maskList_mem m xs a h
      exact ⟨i + 1, by simpa using hi, by simpa using h1, by simpa using h2⟩
    cases b
    · exact step (by simpa using h)
    · simp only [if_true, List.mem_cons] at h
      rcases h with rfl | h
      · exact ⟨0, by simp, by simp, by simp⟩
      · exact step h

/-- The scaled times. -/
theorem scaled_ok {spm : List ℚ} (hg : Growing spm) (h3 : 3 ≤ spm.length) :
    ∃ mid top : ℚ, 0 < top ∧ scaledTimes spm = .ok (spm.map fun t => (t - mid) / top) := by
  have hne : spm ≠ [] := by
    rintro rfl
    simp at h3
  have hg' : Growing (spm.map fun t => t - spm.getD (spm.length / 2) 0) := by
    unfold Growing
    rw [List.pairwise_map]
    exact hg.imp fun h => by linarith
  have hmax := max_growing hg' (by simp; omega)
  have hv : (spm.map fun t => t - spm.getD (spm.length / 2) 0).getD ((spm.map fun t => t - spm.getD (spm.length / 2) 0).length - 1) 0 =
      spm.getD (spm.length - 1) 0 - spm.getD (spm.length / 2) 0 := by
    rw [List.length_map, getD_at (show spm.length - 1 < (spm.map fun t => t - spm.getD (spm.length / 2) 0).length by simp; omega),
      List.getElem_map, ← getD_at (show spm.length - 1 < spm.length by omega)]
  have hpos : 0 < spm.getD (spm.length - 1) 0 - spm.getD (spm.length / 2) 0 := by
    have := hg.lt (show spm.length / 2 < spm.length - 1 by omega) (by omega)
    linarith
  refine ⟨spm.getD (spm.length / 2) 0, _, hpos, ?_⟩
  unfold scaledTimes
  rw [if_neg hne]
  simp only [hmax, bind, Except.bind, hv]
  rw [if_neg hpos.ne']
  rfl

theorem pySlice_nat {l : List ℚ} {a b : Nat} (ha : a ≤ l.length) (hb : b ≤ l.length) : pySlice l a b = (l.take b).drop a := by
  unfold pySlice slicePos
  rw [if_neg (by omega), if_neg (by omega), show (min (b : ℤ) l.length).toNat = b by omega, show (min (a : ℤ) l.length).toNat = a by omega]

theorem pySlice_last {l : List ℚ} {a : Nat} (ha : a ≤ l.length) (h : 1 ≤ l.length) : pySlice l a (-1) = (l.take (l.length - 1)).drop a := by
  unfold pySlice slicePos
  rw [if_neg (by omega), if_pos (by omega), show (max (-1 + (l.length : ℤ)) 0).toNat = l.length - 1 by omega,
    show (min (a : ℤ) l.length).toNat = a by omega]

theorem take_drop_zip {α β : Type} (xs : List α) (ys : List β) (a b : Nat) :
    ((xs.take b).drop a).zip ((ys.take b).drop a) = ((xs.zip ys).take b).drop a := by
  simp only [List.zip_eq_zipWith, List.take_zipWith, List.drop_zipWith]

/-- The marks of `ks` between those of start and end. -/
def marks (ks : List Nat) : List ℤ := [0] ++ ks.map (fun k : Nat => (k : ℤ)) ++ [-1]

theorem marks_length (ks : List Nat) : (marks ks).length = ks.length + 2 := by simp [marks]

theorem marks_zero (ks : List Nat) : (marks ks).getD 0 0 = 0 := rfl

theorem marks_inner {ks : List Nat} {j : Nat} (hj : j < ks.length) : (marks ks).getD (j + 1) 0 = (ks[j] : ℤ) := by
  rw [marks, List.append_assoc, List.singleton_append, List.getD_cons_succ, List.getD_eq_getElem?_getD,
    List.getElem?_append_left (by simpa using hj)]
  simp [hj]

theorem marks_last (ks : List Nat) : (marks ks).getD (ks.length + 1) 0 = -1 := by
  rw [marks, List.append_assoc, List.singleton_append, List.getD_cons_succ, List.getD_eq_getElem?_getD,
    List.getElem?_append_right (by simp)]
  simp

/-- The data between two marks. -/
theorem segment_data {ks : List Nat} {n : Nat} (hp : ks.Pairwise (fun a b => a + 10 ≤ b)) (hk : ∀ k ∈ ks, 10 ≤ k ∧ k + 11 ≤ n) (h6 : 6 ≤ n)
    {i : Nat} (hi : i ≤ ks.length) : ∃ a b : Nat, a + 4 ≤ b ∧ b ≤ n ∧ ∀ l : List ℚ, l.length = n →
      pySlice l ((marks ks).getD i 0 + 1) ((marks ks).getD (i + 1) 0) = (l.take b).drop a := by
  have hA : ∃ a : Nat, (marks ks).getD i 0 + 1 = a ∧ (i = 0 → a = 1) ∧ (∀ h : 0 < i, a = ks[i - 1] + 1) := by
    rcases Nat.eq_zero_or_pos i with rfl | h
    · exact ⟨1, by rw [marks_zero]; rfl, fun _ => rfl, fun h => absurd h (by omega)⟩
    · obtain ⟨j, rfl⟩ : ∃ j, i = j + 1 := ⟨i - 1, by omega⟩
      refine ⟨ks[j] + 1, by rw [marks_inner (by omega)]; push_cast; ring, fun h => absurd h (by omega), fun _ => rfl⟩
  obtain ⟨a, ha, a0, a1⟩ := hA
  by_cases hl : i = ks.length
  · refine ⟨a, n - 1, ?_, by omega, fun l hl' => ?_⟩
    · rcases Nat.eq_zero_or_pos i with h | h
      · rw [a0 h]
        omega
      · have := hk _ (List.getElem_mem (show i - 1 < ks.length by omega))
        rw [a1 h]
        omega
    · rw [ha, hl, marks_last, pySlice_last _ (by omega), hl']
      rcases Nat.eq_zero_or_pos i with h | h
      · rw [a0 h]
        omega
      · have := hk _ (List.getElem_mem (show i - 1 < ks.length by omega))
        rw [a1 h]
        omega
  · have hi' : i < ks.length := by omega
    have hb := hk _ (List.getElem_mem hi')
    have hab : a + 4 ≤ ks[i] := by
      rcases Nat.eq_zero_or_pos i with h | h
      · rw [a0 h]
        omega
      · have := List.pairwise_iff_getElem.mp hp (i - 1) i (by omega) hi' (by omega)
        rw [a1 h]
        omega
    refine ⟨a, ks[i], hab, by omega, fun l hl' => ?_⟩
    rw [ha, marks_inner hi', pySlice_nat (by omega) (by omega)]

/-- The fit of a segment. -/
theorem segment_fit {pf : Nat → List ℚ → List ℚ → List ℚ} (hpf : LeastSquares pf) {ts xs ys : List ℚ} (hl : xs.length = ys.length)
    (hn : xs.Nodup) {a b c : ℚ} (he : squares [a, b, c] xs ys = 0) {ks : List Nat} (hp : ks.Pairwise (fun a b => a + 10 ≤ b))
    (hk : ∀ k ∈ ks, 10 ≤ k ∧ k + 11 ≤ xs.length) (h6 : 6 ≤ xs.length) {i : Nat} (hi : i ≤ ks.length) (st : List ℚ × List Nat) :
    segmentStep pf ts xs ys (marks ks) st i = .ok (List.zipWith (fun t z =>
      if (if i = 0 then ts.getD 0 0 else xs.getD ((marks ks).getD i 0 - 1).toNat 0) ≤ t ∧
        t ≤ (if i + 2 = (marks ks).length then ts.getD (ts.length - 1) 0 else xs.getD ((marks ks).getD (i + 1) 0 + 1).toNat 0)
      then a * t ^ 2 + b * t + c else z) ts st.1, st.2 ++ [if a = 0 then 1 else 2]) := by
  obtain ⟨p, q, pq, qn, hs⟩ := segment_data hp hk h6 hi
  have hx := hs xs rfl
  have hy := hs ys hl.symm
  obtain ⟨o1, o2⟩ := order_exact hpf (xs := (xs.take q).drop p) (ys := (ys.take q).drop p) (by simp [hl]) (by simp; omega)
    (hn.sublist ((List.drop_sublist _ _).trans (List.take_sublist _ _))) (a := a) (b := b) (c := c)
    (by
      rw [squares_eq_zero, take_drop_zip]
      intro z hz
      exact squares_eq_zero.mp he z (List.mem_of_mem_take (List.mem_of_mem_drop hz))) (m := 4) (by norm_num)
  unfold segmentStep
  simp only [hx, hy, o1, bind, Except.bind, pure, Except.pure, polyval_eq, o2]

/-- All segments together. -/
theorem segments_fit {pf : Nat → List ℚ → List ℚ → List ℚ} (hpf : LeastSquares pf) {ts xs ys : List ℚ} (hl : xs.length = ys.length)
    (hn : xs.Nodup) {a b c : ℚ} (he : squares [a, b, c] xs ys = 0) {ks : List Nat} (hp : ks.Pairwise (fun a b => a + 10 ≤ b))
    (hk : ∀ k ∈ ks, 10 ≤ k ∧ k + 11 ≤ xs.length) (h6 : 6 ≤ xs.length) (m : Nat) (hm : m ≤ ks.length + 1) :
    ∃ r, (List.range m).foldlM (segmentStep pf ts xs ys (marks ks)) (ts.map fun _ => 0, []) = .ok r ∧ r.1.length = ts.length ∧
      r.2 = List.replicate m (if a = 0 then 1 else 2) ∧
      ∀ j, j < ts.length → (∃ i, i < m ∧ (if i = 0 then ts.getD 0 0 else xs.getD ((marks ks).getD i 0 - 1).toNat 0) ≤ ts.getD j 0 ∧
        ts.getD j 0 ≤ (if i + 2 = (marks ks).length then ts.getD (ts.length - 1) 0 else xs.getD ((marks ks).getD (i + 1) 0 + 1).toNat 0)) →
        r.1.getD j 0 = a * ts.getD j 0 ^ 2 + b * ts.getD j 0 + c := by
  induction m with
  | zero => exact ⟨_, rfl, by simp, rfl, fun j _ ⟨i, hi, _⟩ => absurd hi (by omega)⟩
  | succ m ih =>
    obtain ⟨r, r1, r2, r3, r4⟩ := ih (by omega)
    have hs := segment_fit (ts := ts) hpf hl hn he hp hk h6 (i := m) (by omega) r
    refine ⟨(List.zipWith (fun t z =>
      if (if m = 0 then ts.getD 0 0 else xs.getD ((marks ks).getD m 0 - 1).toNat 0) ≤ t ∧
        t ≤ (if m + 2 = (marks ks).length then ts.getD (ts.length - 1) 0 else xs.getD ((marks ks).getD (m + 1) 0 + 1).toNat 0)
      then a * t ^ 2 + b * t + c else z) ts r.1, r.2 ++ [if a = 0 then 1 else 2]), ?_, ?_, ?_, ?_⟩
    · rw [List.range_succ, List.foldlM_append, r1]
      simp only [bind, Except.bind, List.foldlM_cons, List.foldlM_nil, hs]
      rfl
    · simp [r2]
    · rw [r3, List.replicate_succ']
    · intro j hj hc
      rw [getD_at (show j < (List.zipWith _ ts r.1).length by simp [r2, hj]), List.getElem_zipWith, ← getD_at hj]
      by_cases hno : (if m = 0 then ts.getD 0 0 else xs.getD ((marks ks).getD m 0 - 1).toNat 0) ≤ ts.getD j 0 ∧
        ts.getD j 0 ≤ (if m + 2 = (marks ks).length then ts.getD (ts.length - 1) 0 else xs.getD ((marks ks).getD (m + 1) 0 + 1).toNat 0)
      · rw [if_pos hno]
      · rw [if_neg hno]
        obtain ⟨i, hi, hi2⟩ := hc
        have : i < m := by
          by_contra hge
          have : i = m := by omega
          subst this
          exact hno hi2
        rw [← getD_at (show j < r.1.length by omega)]
        exact r4 j hj ⟨i, this, hi2⟩

/-- Every time belongs to a segment. -/
theorem segments_cover {ts xs : List ℚ} (ht : Growing ts) (hx : Growing xs) {ks : List Nat} (hk : ∀ k ∈ ks, 10 ≤ k ∧ k + 11 ≤ xs.length)
    {j : Nat} (hj : j < ts.length) : ∃ i, i < ks.length + 1 ∧
      (if i = 0 then ts.getD 0 0 else xs.getD ((marks ks).getD i 0 - 1).toNat 0) ≤ ts.getD j 0 ∧
      ts.getD j 0 ≤ (if i + 2 = (marks ks).length then ts.getD (ts.length - 1) 0 else xs.getD ((marks ks).getD (i + 1) 0 + 1).toNat 0) := by
  suffices h : ∀ i, i < ks.length + 1 → (∃ i', i' ≤ i ∧
      (if i' = 0 then ts.getD 0 0 else xs.getD ((marks ks).getD i' 0 - 1).toNat 0) ≤ ts.getD j 0 ∧
      ts.getD j 0 ≤ (if i' + 2 = (marks ks).length then ts.getD (ts.length - 1) 0 else xs.getD ((marks ks).getD (i' + 1) 0 + 1).toNat 0)) ∨
      (i < ks.length ∧ xs.getD ((marks ks).getD (i + 1) 0 + 1).toNat 0 < ts.getD j 0) by
    rcases h ks.length (by omega) with ⟨i, hi, h⟩ | h
    · exact ⟨i, by omega, h⟩
    · exact absurd h.1 (by omega)
  have hend : ts.getD j 0 ≤ ts.getD (ts.length - 1) 0 := ht.le (by omega) (by omega)
  intro i
  induction i with
  | zero =>
    intro _
    by_cases h0 : 0 + 2 = (marks ks).length
    · refine .inl ⟨0, le_rfl, ?_, ?_⟩
      · rw [if_pos rfl]
        exact ht.le (Nat.zero_le _) hj
      · rw [if_pos h0]
        exact hend
    · rcases le_or_gt (ts.getD j 0) (xs.getD ((marks ks).getD (0 + 1) 0 + 1).toNat 0) with h | h
      · refine .inl ⟨0, le_rfl, ?_, ?_⟩
        · rw [if_pos rfl]
          exact ht.le (Nat.zero_le _) hj
        · rw [if_neg h0]
          exact h
      · rw [marks_length] at h0
        exact .inr ⟨by omega, h⟩
  | succ i ih =>
    intro hi
    rcases ih (by omega) with ⟨i', h1, h2⟩ | ⟨h1, h2⟩
    · exact .inl ⟨i', by omega, h2⟩
    · have hki := hk _ (List.getElem_mem h1)
      have hlo : xs.getD ((marks ks).getD (i + 1) 0 - 1).toNat 0 ≤ ts.getD j 0 := by
        rw [marks_inner h1] at h2 ⊢
        have : xs.getD ((ks[i] : ℤ) - 1).toNat 0 ≤ xs.getD ((ks[i] : ℤ) + 1).toNat 0 := hx.le (by omega) (by omega)
        linarith
      by_cases h0 : i + 1 + 2 = (marks ks).length
      · refine .inl ⟨i + 1, le_rfl, ?_, ?_⟩
        · rw [if_neg (by omega)]
          exact hlo
        · rw [if_pos h0]
          exact hend
      · rcases le_or_gt (ts.getD j 0) (xs.getD ((marks ks).getD (i + 1 + 1) 0 + 1).toNat 0) with h | h
        · refine .inl ⟨i + 1, le_rfl, ?_, ?_⟩
          · rw [if_neg (by omega)]
            exact hlo
          · rw [if_neg h0]
            exact h
        · rw [marks_length] at h0
          exact .inr ⟨by omega, h⟩

/-- An offset that is a parabola in time where it is marked is found exactly, at all times and for all years, if at least six data
are marked. -/
theorem C108_exact_partial {pf : Nat → List ℚ → List ℚ → List ℚ} (hpf : LeastSquares pf) {year : Nat} {spm rho f : List ℚ} {mask : List Bool}
    (hg : Growing spm) (hm : mask.length = spm.length) (hf : f.length = spm.length) (hr : rho.length = spm.length)
    (h6 : 6 ≤ mask.count true) {a b c : ℚ}
    (he : ∀ i, i < spm.length → mask.getD i false = true → f.getD i 0 = a * spm.getD i 0 ^ 2 + b * spm.getD i 0 + c) :
    ∃ r, fitOffset pf year spm rho f mask = .ok r ∧ r.fit.length = spm.length ∧
      (∀ i, i < spm.length → r.fit.getD i 0 = a * spm.getD i 0 ^ 2 + b * spm.getD i 0 + c) ∧
      ∀ o ∈ r.orders, o = if a = 0 then 1 else 2 := by
  have hcount : mask.count true ≤ spm.length := hm ▸ List.count_le_length
  obtain ⟨mid, top, htop, hts⟩ := scaled_ok hg (by omega)
  set ts := spm.map fun t => (t - mid) / top with hts'
  have tl : ts.length = spm.length := by simp [hts']
  have tv : ∀ i, i < spm.length → ts.getD i 0 = (spm.getD i 0 - mid) / top := by
    intro i hi
    rw [getD_at (show i < ts.length by omega), getD_at hi]
    simp [hts']
  have tg : Growing ts := by
    unfold Growing
    rw [hts', List.pairwise_map]
    exact hg.imp fun h => div_lt_div_of_pos_right (by linarith) htop
  set A := a * top ^ 2 with hA
  set B := (2 * a * mid + b) * top with hB
  set C := a * mid ^ 2 + b * mid + c with hC
  have val : ∀ i, i < spm.length → A * ts.getD i 0 ^ 2 + B * ts.getD i 0 + C = a * spm.getD i 0 ^ 2 + b * spm.getD i 0 + c := by
    intro i hi
    rw [tv i hi, hA, hB, hC]
    field_simp
    ring
  have hA0 : A = 0 ↔ a = 0 := by
    rw [hA, mul_eq_zero, or_iff_left (pow_ne_zero 2 htop.ne')]
  set xs := maskList mask ts with hxs
  set ys := maskList mask f with hys
  have xl : xs.length = ys.length := maskList_length mask ts f (by omega)
  have x6 : 6 ≤ xs.length := by rwa [hxs, maskList_count mask ts (by omega)]
  have xg : Growing xs := List.Pairwise.sublist (maskList_sublist mask ts) tg
  have xn : xs.Nodup := List.Pairwise.imp (fun h => ne_of_lt h) xg
  have he' : squares [A, B, C] xs ys = 0 := by
    rw [squares_eq_zero, hxs, hys, maskList_zip mask ts f (by omega)]
    intro p hp
    obtain ⟨i, hi, h1, h2⟩ := maskList_mem mask _ p hp
    have hi' : i < spm.length := by
      rw [List.length_zip] at hi
      omega
    rw [List.getElem_zip] at h2
    rw [← h2]
    simp only [poly, List.length_cons, List.length_nil, Finset.sum_range_succ, Finset.sum_range_zero]
    have := he i hi' h1
    rw [← val i hi'] at this
    rw [getD_at (show i < f.length by omega), getD_at (show i < ts.length by omega)] at this
    simp
    rw [this]
  have m1 : npMask mask ts = .ok xs := by
    unfold npMask
    rw [if_pos (by omega)]
  have m2 : npMask mask f = .ok ys := by
    unfold npMask
    rw [if_pos (by omega)]
  unfold fitOffset
  simp only [hts, bind, Except.bind, m1, m2]
  split
  · obtain ⟨o1, o2⟩ := order_exact hpf xl (by omega) xn he' (m := 9) (by norm_num)
    have m3 : npMask mask (ts.map (polyval (pf (if A = 0 then 1 else 2) xs ys))) =
        .ok (maskList mask (ts.map (polyval (pf (if A = 0 then 1 else 2) xs ys)))) := by
      unfold npMask
      rw [if_pos (by simp; omega)]
    simp only [o1, m3]
    refine ⟨_, rfl, by simp [tl], fun i hi => ?_, fun o ho => ?_⟩
    · rw [getD_at (show i < (ts.map (polyval (pf (if A = 0 then 1 else 2) xs ys))).length by simp; omega), List.getElem_map,
        ← getD_at (show i < ts.length by omega), polyval_eq, o2, val i hi]
    · simp only [List.mem_singleton] at ho
      rw [ho]
      simp only [hA0]
  · have m3 : npMask mask rho = .ok (maskList mask rho) := by
      unfold npMask
      rw [if_pos (by omega)]
    obtain ⟨ks, k1, k2, k3⟩ := C107_list (x := xs) (rho := maskList mask rho) (f := ys) (df := 1 / 10) xl.symm (by omega)
    have k3' : ∀ k ∈ ks, 10 ≤ k ∧ k + 11 ≤ xs.length := fun k hk => ⟨(k3 k hk).1, (k3 k hk).2.1⟩
    have k1' : getDisconts xs (maskList mask rho) ys (1 / 10) = .ok (marks ks) := k1
    obtain ⟨r, r1, r2, r3, r4⟩ := segments_fit (ts := ts) hpf xl xn he' k2 k3' x6 (ks.length + 1) le_rfl
    have hlen : (marks ks).length - 1 = ks.length + 1 := by rw [marks_length]; omega
    have m4 : npMask mask r.1 = .ok (maskList mask r.1) := by
      unfold npMask
      rw [if_pos (by omega)]
    simp only [m3, k1', hlen, r1, m4]
    refine ⟨_, rfl, by simp only; omega, fun i hi => ?_, fun o ho => ?_⟩
    · simp only
      rw [r4 i (by omega) (segments_cover tg xg k3' (by omega)), val i hi]
    · simp only at ho
      rw [r3] at ho
      rw [List.eq_of_mem_replicate ho]
      simp only [hA0]

example : ∃ pf, LeastSquares pf ∧ ∃ r, fitOffset pf 2012 [10, 20, 30, 40, 50, 60, 70] [80000, 80001, 80002, 80003, 80004, 80005, 80006]
    [1, 4, 9, 16, 25, 77, 49] [true, true, true, true, true, false, true] = .ok r ∧ r.fit.getD 5 0 = 36 := by
  obtain ⟨pf, hpf⟩ := leastSquares_exists
  refine ⟨pf, hpf, ?_⟩
  obtain ⟨r, h1, -, h2, -⟩ := C108_exact_partial hpf (year := 2012) (spm := [10, 20, 30, 40, 50, 60, 70])
    (rho := [80000, 80001, 80002, 80003, 80004, 80005, 80006]) (f := [1, 4, 9, 16, 25, 77, 49])
    (mask := [true, true, true, true, true, false, true]) (a := 1 / 100) (b := 0) (c := 0) (by unfold Growing; decide +kernel) rfl rfl rfl
    (by decide) (by decide +kernel)
  exact ⟨r, h1, by rw [h2 5 (by decide)]; norm_num⟩

theorem cubic_run {pf : Nat → List ℚ → List ℚ → List ℚ} (hpf : LeastSquares pf) :
    fitOffset pf 2005 [1, 2, 3, 4, 5] [80000, 80001, 80002, 80003, 80004] [-18, -11, -10, -9, -2] [true, true, true, true, true] =
      .ok ⟨[-84 / 5, -67 / 5, -10, -33 / 5, -16 / 5], [1], some (-(36 / 25 / (84 / 5) + 144 / 25 / (67 / 5) +
        144 / 25 / (33 / 5) + 36 / 25 / (16 / 5)))⟩ := by
  have low : ∀ a b c : ℚ, 72 / 5 ≤ squares [a, b, c] [-1, -1 / 2, 0, 1 / 2, 1] [-18, -11, -10, -9, -2] := by
    intro a b c
    simp [squares, poly, Finset.sum_range_succ]
    nlinarith [sq_nonneg (b - 34 / 5), sq_nonneg (a + c + 10), sq_nonneg (a / 4 + c + 10), sq_nonneg (c + 10)]
  have ord : polyOrder pf [-1, -1 / 2, 0, 1 / 2, 1] [-18, -11, -10, -9, -2] 9 = .ok 1 := by
    obtain ⟨r, e, h1, -, -, h4, -⟩ := C106_order hpf (xs := [-1, -1 / 2, 0, 1 / 2, 1]) (ys := [-18, -11, -10, -9, -2]) rfl (by decide) 9
    rw [e]
    congr 1
    by_contra hne
    obtain ⟨s1, s2, l1, ⟨⟨c, c1, c2⟩, -⟩, -, h⟩ := h4 1 le_rfl (by omega)
    have e1 : s1 ≤ 72 / 5 := (l1.2 [34 / 5, -10] rfl).trans (by decide +kernel)
    obtain ⟨x, y, z, rfl⟩ : ∃ x y z, c = [x, y, z] := by
      match c, c1 with
      | [x, y, z], _ => exact ⟨x, y, z, rfl⟩
    have e2 := low x y z
    rw [c2] at e2
    norm_num at h
    linarith
  have coef : pf 1 [-1, -1 / 2, 0, 1 / 2, 1] [-18, -11, -10, -9, -2] = [34 / 5, -10] := by
    obtain ⟨h1, h2⟩ := hpf 1 [-1, -1 / 2, 0, 1 / 2, 1] [-18, -11, -10, -9, -2] rfl
    have h3 := h2 [34 / 5, -10] rfl
    generalize pf 1 [-1, -1 / 2, 0, 1 / 2, 1] [-18, -11, -10, -9, -2] = l at *
    obtain ⟨a, b, rfl⟩ : ∃ a b, l = [a, b] := by
      match l, h1 with
      | [a, b], _ => exact ⟨a, b, rfl⟩
    simp [poly, Finset.sum_range_succ] at h3
    have ha : (a - 34 / 5) ^ 2 ≤ 0 := by nlinarith [sq_nonneg (b + 10)]
    have hb : (b + 10) ^ 2 ≤ 0 := by nlinarith [sq_nonneg (a - 34 / 5)]
    have ha' := pow_eq_zero_iff (n := 2) (by norm_num) |>.mp (le_antisymm ha (sq_nonneg _))
    have hb' := pow_eq_zero_iff (n := 2) (by norm_num) |>.mp (le_antisymm hb (sq_nonneg _))
    rw [show a = 34 / 5 by linarith, show b = -10 by linarith]
  unfold fitOffset
  have e1 : scaledTimes [1, 2, 3, 4, 5] = .ok [-1, -1 / 2, 0, 1 / 2, 1] := by decide +kernel
  have e2 : npMask [true, true, true, true, true] [-1, -1 / 2, 0, 1 / 2, 1] = .ok [-1, -1 / 2, 0, 1 / 2, 1] := by decide +kernel
  have e3 : npMask [true, true, true, true, true] [-18, -11, -10, -9, -2] = .ok [-18, -11, -10, -9, -2] := by decide +kernel
  simp only [e1, e2, e3, bind, Except.bind, ord, coef, if_pos (show 2005 < 2011 by norm_num)]
  decide +kernel

/-- A cubic is not found, if the data are symmetric about their middle: up to 2.4 Hz are left. -/
theorem C108_cubic_false : ∃ (spm rho f : List ℚ) (mask : List Bool), Growing spm ∧ mask.count true = 5 ∧
    (∀ i, i < 5 → f.getD i 0 = (spm.getD i 0 - 3) ^ 3 - 10) ∧
    ∀ pf, LeastSquares pf → ∃ r, fitOffset pf 2005 spm rho f mask = .ok r ∧ r.fit.getD 1 0 - f.getD 1 0 = -12 / 5 := by
  refine ⟨[1, 2, 3, 4, 5], [80000, 80001, 80002, 80003, 80004], [-18, -11, -10, -9, -2], [true, true, true, true, true],
    by unfold Growing; decide +kernel, rfl, by decide +kernel, fun pf hpf => ⟨_, cubic_run hpf, by decide +kernel⟩⟩

/-- The sum over the marked data, by recursion over the three lists. -/
def chiMarked : List Bool → List ℚ → List ℚ → ℚ
  | b :: m, z :: fit, y :: f => (if b then (z - y) ^ 2 / z else 0) + chiMarked m fit f
  | _, _, _ => 0

theorem chi_marked : ∀ (m : List Bool) (fit f : List ℚ),
    (List.zipWith (fun z y => (z - y) ^ 2 / z) (maskList m fit) (maskList m f)).sum = chiMarked m fit f
  | [], _, _ => by simp [maskList, chiMarked]
  | _ :: _, [], _ => by simp [maskList, chiMarked]
  | _ :: _, _ :: _, [] => by simp [maskList, chiMarked]
  | b :: m, z :: fit, y :: f => by
    rw [maskList_cons, maskList_cons, chiMarked, ← chi_marked m fit f]
    cases b <;> simp

theorem npMask_ok {mask : List Bool} {l r : List ℚ} (h : npMask mask l = .ok r) : r = maskList mask l := by
  unfold npMask at h
  split at h
  · injection h with h; exact h.symm
  · cases h

/-- The measure of the fit is Pearson's sum over the marked data, and over no others, if the fit is 0 at none of them. -/
theorem C108_chi {pf : Nat → List ℚ → List ℚ → List ℚ} {year : Nat} {spm rho f : List ℚ} {mask : List Bool} {r : OffsetFit}
    (h : fitOffset pf year spm rho f mask = .ok r) (h0 : ∀ i, mask.getD i false = true → r.fit.getD i 0 ≠ 0) :
    r.chi2 = some (chiMarked mask r.fit f) := by
  have key : ∀ fit : List ℚ, (∀ i, mask.getD i false = true → fit.getD i 0 ≠ 0) →
      pearson (maskList mask fit) (maskList mask f) = some (chiMarked mask fit f) := by
    intro fit hf
    rw [pearson, if_neg, chi_marked]
    intro ha
    obtain ⟨z, hz, z0⟩ := List.any_eq_true.mp ha
    obtain ⟨p, hp, rfl⟩ := List.mem_map.mp hz
    obtain ⟨hp, hb⟩ := List.mem_filter.mp hp
    obtain ⟨i, hi, e⟩ := List.mem_iff_getElem.mp hp
    have hi' : i < mask.length ∧ i < fit.length := by simpa using hi
    rw [List.getElem_zip] at e
    have e1 : mask[i] = p.1 := by rw [← e]
    have e2 : fit[i] = p.2 := by rw [← e]
    have := hf i (by rw [List.getD_eq_getElem?_getD, List.getElem?_eq_getElem hi'.1, Option.getD_some, e1]; exact hb)
    rw [List.getD_eq_getElem?_getD, List.getElem?_eq_getElem hi'.2, Option.getD_some, e2] at this
    exact this (by simpa using z0)
  unfold fitOffset at h
  rcases e1 : scaledTimes spm with x | ts
  · simp only [e1, bind, Except.bind] at h; cases h
  rcases e2 : npMask mask ts with x | xs
  · simp only [e1, e2, bind, Except.bind] at h; cases h
  rcases e3 : npMask mask f with x | ys
  · simp only [e1, e2, e3, bind, Except.bind] at h; cases h
  simp only [e1, e2, e3, bind, Except.bind] at h
  split at h
  · rcases e4 : polyOrder pf xs ys 9 with x | order
    · simp only [e4] at h; cases h
    simp only [e4] at h
    rcases e5 : npMask mask (ts.map (polyval (pf order xs ys))) with x | under
    · simp only [e5] at h; cases h
    simp only [e5, pure, Except.pure] at h
    injection h with h
    subst h
    exact (congrArg₂ pearson (npMask_ok e5) (npMask_ok e3)).trans (key _ h0)
  · rcases e4 : npMask mask rho with x | rs
    · simp only [e4] at h; cases h
    simp only [e4] at h
    rcases e5 : getDisconts xs rs ys (1 / 10) with x | ds
    · simp only [e5] at h; cases h
    simp only [e5] at h
    rcases e6 : (List.range (ds.length - 1)).foldlM (segmentStep pf ts xs ys ds) (ts.map fun _ => 0, []) with x | st
    · simp only [e6] at h; cases h
    simp only [e6] at h
    rcases e7 : npMask mask st.1 with x | under
    · simp only [e7] at h; cases h
    simp only [e7, pure, Except.pure] at h
    injection h with h
    subst h
    exact (congrArg₂ pearson (npMask_ok e7) (npMask_ok e3)).trans (key _ h0)

example : ∃ (pf : Nat → List ℚ → List ℚ → List ℚ) (r : OffsetFit),
    fitOffset pf 2005 [1, 2, 3, 4, 5] [80000, 80001, 80002, 80003, 80004] [-18, -11, -10, -9, -2] [true, true, true, true, true] = .ok r ∧
      r.chi2 = some (chiMarked [true, true, true, true, true] r.fit [-18, -11, -10, -9, -2]) := by
  obtain ⟨pf, hpf⟩ := leastSquares_exists
  refine ⟨pf, _, cubic_run hpf, C108_chi (cubic_run hpf) fun i hi => ?_⟩
  have h5 : i < 5 := by
    by_contra hc
    rw [List.getD_eq_getElem?_getD, List.getElem?_eq_none (by simpa using hc)] at hi
    cases hi
  interval_cases i <;> decide +kernel

/-- The sum of squares that is to assess the fit can be negative. -/
theorem C108_chi_false : ¬ ∀ (pf : Nat → List ℚ → List ℚ → List ℚ) (year : Nat) (spm rho f : List ℚ) (mask : List Bool) (r : OffsetFit) (x : ℚ),
    LeastSquares pf → fitOffset pf year spm rho f mask = .ok r → r.chi2 = some x → 0 ≤ x := by
  intro h
  obtain ⟨pf, hpf⟩ := leastSquares_exists
  have := h pf _ _ _ _ _ _ _ hpf (cubic_run hpf) rfl
  norm_num at this

/-- After 2010 the last datum (and the first one) is not used: whatever it is, the fit is 0 and so not one of least squares. -/
theorem C108_ends_false (y : ℚ) {pf : Nat → List ℚ → List ℚ → List ℚ} (hpf : LeastSquares pf) :
    ∃ r, fitOffset pf 2012 [1, 2, 3, 4, 5, 6] [80000, 80001, 80002, 80003, 80004, 80005] [0, 0, 0, 0, 0, y]
      [true, true, true, true, true, true] = .ok r ∧ r.fit = [0, 0, 0, 0, 0, 0] := by
  have e1 : scaledTimes [1, 2, 3, 4, 5, 6] = .ok [-3 / 2, -1, -1 / 2, 0, 1 / 2, 1] := by decide +kernel
  have e2 : npMask [true, true, true, true, true, true] [-3 / 2, -1, -1 / 2, 0, 1 / 2, 1] = .ok [-3 / 2, -1, -1 / 2, 0, 1 / 2, 1] := by
    decide +kernel
  have e3 : npMask [true, true, true, true, true, true] [0, 0, 0, 0, 0, y] = .ok [0, 0, 0, 0, 0, y] := rfl
  have e4 : npMask [true, true, true, true, true, true] [80000, 80001, 80002, 80003, 80004, 80005] =
    .ok [80000, 80001, 80002, 80003, 80004, 80005] := by decide +kernel
  obtain ⟨ks, k1, k2, k3⟩ := C107_list (x := [-3 / 2, -1, -1 / 2, 0, 1 / 2, 1]) (rho := [80000, 80001, 80002, 80003, 80004, 80005])
    (f := [0, 0, 0, 0, 0, y]) (df := 1 / 10) rfl (by decide)
  have hks : ks = [] := by
    cases ks with
    | nil => rfl
    | cons k ks =>
      have := (k3 k (by simp)).2.1
      simp at this
  subst hks
  have k1' : getDisconts [-3 / 2, -1, -1 / 2, 0, 1 / 2, 1] [80000, 80001, 80002, 80003, 80004, 80005] [0, 0, 0, 0, 0, y] (1 / 10) =
    .ok [0, -1] := k1
  obtain ⟨o1, o2⟩ := order_exact hpf (xs := [-1, -1 / 2, 0, 1 / 2]) (ys := [0, 0, 0, 0]) rfl (by decide) (by decide +kernel)
    (a := 0) (b := 0) (c := 0) (by decide +kernel) (m := 4) (by norm_num)
  rw [if_pos rfl] at o1 o2
  have st : segmentStep pf [-3 / 2, -1, -1 / 2, 0, 1 / 2, 1] [-3 / 2, -1, -1 / 2, 0, 1 / 2, 1] [0, 0, 0, 0, 0, y] [0, -1]
      ([0, 0, 0, 0, 0, 0], []) 0 = .ok ([0, 0, 0, 0, 0, 0], [1]) := by
    unfold segmentStep
    have s1 : pySlice [-3 / 2, -1, -1 / 2, 0, 1 / 2, 1] (([0, -1] : List ℤ).getD 0 0 + 1) (([0, -1] : List ℤ).getD (0 + 1) 0) =
      [-1, -1 / 2, 0, 1 / 2] := by decide +kernel
    have s2 : pySlice [0, 0, 0, 0, 0, y] (([0, -1] : List ℤ).getD 0 0 + 1) (([0, -1] : List ℤ).getD (0 + 1) 0) = [0, 0, 0, 0] := rfl
    simp only [s1, s2, o1, bind, Except.bind, pure, Except.pure, polyval_eq, o2]
    simp
  unfold fitOffset
  simp only [e1, e2, e3, e4, k1', bind, Except.bind]
  have fold : (List.range (([0, -1] : List ℤ).length - 1)).foldlM (segmentStep pf [-3 / 2, -1, -1 / 2, 0, 1 / 2, 1]
      [-3 / 2, -1, -1 / 2, 0, 1 / 2, 1] [0, 0, 0, 0, 0, y] [0, -1]) (([-3 / 2, -1, -1 / 2, 0, 1 / 2, 1] : List ℚ).map fun _ => 0, []) =
      .ok ([0, 0, 0, 0, 0, 0], [1]) := by
    show (segmentStep pf _ _ _ _ ([0, 0, 0, 0, 0, 0], []) 0 >>= fun s => List.foldlM _ s []) = _
    rw [st]
    rfl
  rw [fold]
  exact ⟨_, rfl, rfl⟩

end Verif.Cal
