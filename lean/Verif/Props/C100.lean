import Verif.Model.DlpSplit
import Verif.Props.C97

/-!
# C100: the two profiles of a chord
-/
namespace Verif.Cal
open Verif.Rsr Verif.Geo Verif.Geo.Spec Verif.Cal.Spec

theorem firstIndex_growing {x : List ℚ} (h : Growing x) {c : ℚ} {k : Nat} (hk : firstIndex (fun t => t = c) x = .ok k) :
    k < x.length ∧ x.getD k 0 = c ∧ ∀ i, i < x.length → (x.getD i 0 < c ↔ i < k) := by
  obtain ⟨h1, h2, -⟩ := firstIndex_ok hk
  rw [decide_eq_true_eq] at h2
  rw [← getD_at h1] at h2
  refine ⟨h1, h2, fun i hi => ?_⟩
  rw [← h2]
  constructor
  · intro hlt
    by_contra hc
    have := h.le (show k ≤ i by omega) hi
    linarith
  · intro hik
    exact h.lt hik h1

theorem take_before {α : Type} {x : List ℚ} {l : List α} (h : Growing x) {c : ℚ} {k : Nat}
    (hk : firstIndex (fun t => t = c) x = .ok k) : (x.take k).zip (l.take k) = (x.zip l).filter fun p => decide (p.1 < c) := by
  obtain ⟨h1, h2, h3⟩ := firstIndex_growing h hk
  rw [filter_slice _ _ (Nat.zero_le k)]
  · unfold slice
    rw [List.drop_zero, List.zip_eq_zipWith, List.zip_eq_zipWith, List.take_zipWith]
  · intro i hi
    rw [List.length_zip] at hi
    rw [List.getElem_zip]
    simp only [decide_eq_true_eq]
    rw [← getD_at (show i < x.length by omega), h3 i (by omega)]
    omega

theorem drop_after {α : Type} {x : List ℚ} {l : List α} (h : Growing x) {c : ℚ} {k : Nat}
    (hk : firstIndex (fun t => t = c) x = .ok k) : (x.drop k).zip (l.drop k) = (x.zip l).filter fun p => decide (c ≤ p.1) := by
  obtain ⟨h1, h2, h3⟩ := firstIndex_growing h hk
  rw [filter_slice (i := k) (j := max k (x.zip l).length) _ _ (by omega)]
  · unfold slice
    rw [List.take_of_length_le (l := x.zip l) (by omega), List.zip_eq_zipWith, List.zip_eq_zipWith, List.drop_zipWith]
  · intro i hi
    have hi' := hi
    rw [List.length_zip] at hi
    rw [List.getElem_zip]
    simp only [decide_eq_true_eq]
    rw [← getD_at (show i < x.length by omega), ← not_lt, h3 i (by omega)]
    omega

theorem sgn_eq (a b : ℚ) : sgn a - sgn b = 0 ↔ ((0 < a ↔ 0 < b) ∧ (a < 0 ↔ b < 0)) := by
  unfold sgn
  by_cases a1 : a < 0 <;> by_cases a2 : 0 < a <;> by_cases b1 : b < 0 <;> by_cases b2 : 0 < b <;> simp [a1, a2, b1, b2]
  all_goals linarith

/-- What `createPieces` returns for both directions. -/
theorem createPieces_both {p q : Piece} {r : Pieces} (h : createPieces p = .ok (r, q)) (hd : p.dir = .both) :
    trimPiece p = .ok q ∧ ∃ i ing egr t gI rI cI gE rE cE, r = ⟨some ing, some egr⟩ ∧ i ∈ signChanges q.geoDot ∧
      (∀ k ∈ signChanges q.geoDot, i ≤ k) ∧ i + 1 < q.geoSpm.length ∧ t = q.geoSpm.getD (i + 1) 0 ∧
      firstIndex (fun x => x = t - 1) q.geoSpm = .ok gI ∧ firstIndex (fun x => x = t - 1) q.rawSpm = .ok rI ∧
      firstIndex (fun x => x = t - 1) q.calSpm = .ok cI ∧ firstIndex (fun x => x = t + 1) q.geoSpm = .ok gE ∧
      firstIndex (fun x => x = t + 1) q.rawSpm = .ok rE ∧ firstIndex (fun x => x = t + 1) q.calSpm = .ok cE ∧
      pieceDir (q.geoRho.take gI) = .ok ing.dir ∧ pieceDir (q.geoRho.drop gE) = .ok egr.dir ∧
      ing = ⟨q.geoSpm.take gI, q.geoRho.take gI, q.geoDot.take gI, q.geoCols.map (·.take gI), q.rawSpm.take rI,
          q.iqM.take rI, q.iqC.take rI, q.calSpm.take cI, q.calCols.map (·.take cI), ing.dir⟩ ∧
      egr = ⟨q.geoSpm.drop gE, q.geoRho.drop gE, q.geoDot.drop gE, q.geoCols.map (·.drop gE), q.rawSpm.drop rE,
          q.iqM.drop rE, q.iqC.drop rE, q.calSpm.drop cE, q.calCols.map (·.drop cE), egr.dir⟩ := by
  unfold createPieces at h
  cases h1 : trimPiece p with
  | error e => rw [h1] at h; cases h
  | ok q' =>
    have hd' : q'.dir = .both := by
      unfold trimPiece at h1
      cases a1 : pyMaxL p.geoSpm with
      | error e => rw [a1] at h1; cases h1
      | ok hi =>
        cases a2 : pyMinL p.geoSpm with
        | error e => rw [a1, a2] at h1; cases h1
        | ok lo =>
          rw [a1, a2] at h1
          simp only [bind, Except.bind] at h1
          split at h1
          · cases a3 : firstIndex (fun t => t = p.geoSpm.getD 0 0) p.rawSpm with
            | error e => rw [a3] at h1; cases h1
            | ok i1 =>
              cases a4 : firstIndex (fun t => t = p.geoSpm.getD (p.geoSpm.length - 1) 0) p.rawSpm with
              | error e => rw [a3, a4] at h1; cases h1
              | ok i2 =>
                rw [a3, a4] at h1
                cases h1
                exact hd
          · cases h1
            exact hd
    rw [h1] at h
    simp only [bind, Except.bind, hd'] at h
    cases hsc : signChanges q'.geoDot with
    | nil => rw [hsc] at h; cases h
    | cons i rest =>
      rw [hsc] at h
      simp only at h
      split at h
      · cases h
      · rename_i hlen
        generalize ht : q'.geoSpm.getD (i + 1) 0 = t at h
        cases e1 : firstIndex (fun x => x = t - 1) q'.geoSpm with
        | error e => rw [e1] at h; cases h
        | ok gI =>
        cases e2 : firstIndex (fun x => x = t - 1) q'.rawSpm with
        | error e => rw [e1, e2] at h; cases h
        | ok rI =>
        cases e3 : firstIndex (fun x => x = t - 1) q'.calSpm with
        | error e => rw [e1, e2, e3] at h; cases h
        | ok cI =>
        cases e4 : firstIndex (fun x => x = t + 1) q'.geoSpm with
        | error e => rw [e1, e2, e3, e4] at h; cases h
        | ok gE =>
        cases e5 : firstIndex (fun x => x = t + 1) q'.rawSpm with
        | error e => rw [e1, e2, e3, e4, e5] at h; cases h
        | ok rE =>
        cases e6 : firstIndex (fun x => x = t + 1) q'.calSpm with
        | error e => rw [e1, e2, e3, e4, e5, e6] at h; cases h
        | ok cE =>
        cases e7 : pieceDir (q'.geoRho.take gI) with
        | error e => simp only [e1, e2, e3, e4, e5, e6, e7] at h; cases h
        | ok dI =>
        cases e8 : pieceDir (q'.geoRho.drop gE) with
        | error e => simp only [e1, e2, e3, e4, e5, e6, e7, e8] at h; cases h
        | ok dE =>
        simp only [e1, e2, e3, e4, e5, e6, e7, e8, pure, Except.pure, Except.ok.injEq, Prod.mk.injEq] at h
        obtain ⟨hr, rfl⟩ := h
        refine ⟨rfl, i, _, _, t, gI, rI, cI, gE, rE, cE, hr.symm, by rw [hsc]; simp, ?_, by omega, ht.symm, e1, e2, e3, e4, e5, e6, e7, e8,
          rfl, rfl⟩
        intro k hk
        have pw : (signChanges q'.geoDot).Pairwise (· < ·) := List.Pairwise.filter _ List.pairwise_lt_range
        rw [hsc] at hk pw
        rcases List.mem_cons.mp hk with rfl | hk
        · exact le_refl _
        · exact ((List.pairwise_cons.mp pw).1 k hk).le

theorem pieceDir_ok {rho : List ℚ} {d : Dir} (h : pieceDir rho = .ok d) :
    1 < rho.length ∧ (d = .ingress ↔ rho.getD 1 0 < rho.getD 0 0) ∧ (d = .egress ↔ rho.getD 0 0 ≤ rho.getD 1 0) := by
  unfold pieceDir at h
  split at h
  · cases h
  · rename_i hl
    cases h
    refine ⟨by omega, ?_⟩
    by_cases hs : rho.getD 1 0 - rho.getD 0 0 < 0
    · rw [if_pos hs]
      exact ⟨⟨fun _ => by linarith, fun _ => rfl⟩, ⟨fun h => (by cases h), fun h => (by linarith)⟩⟩
    · rw [if_neg hs]
      exact ⟨⟨fun h => (by cases h), fun h => (by linarith)⟩, ⟨fun _ => by linarith, fun _ => rfl⟩⟩

theorem slice_between {α : Type} {x : List ℚ} {l : List α} (h : Growing x) {a b : ℚ} (hab : a ≤ b) {j k : Nat}
    (hj : firstIndex (fun t => t = a) x = .ok j) (hk : firstIndex (fun t => t = b) x = .ok k) :
    (slice x j k).zip (slice l j k) = (x.zip l).filter fun p => decide (a ≤ p.1 ∧ p.1 < b) := by
  obtain ⟨h1, h2, h3⟩ := firstIndex_growing h hj
  obtain ⟨k1, k2, k3⟩ := firstIndex_growing h hk
  have hjk : j ≤ k := by
    by_contra hc
    have := h.lt (show k < j by omega) h1
    rw [h2, k2] at this
    linarith
  rw [filter_slice (i := j) (j := k) _ _ hjk]
  · unfold slice
    rw [List.zip_eq_zipWith, List.zip_eq_zipWith, List.take_zipWith, List.drop_zipWith]
  · intro i hi
    rw [List.length_zip] at hi
    rw [List.getElem_zip]
    simp only [decide_eq_true_eq]
    rw [← getD_at (show i < x.length by omega), ← not_lt, h3 i (by omega), k3 i (by omega)]
    omega

/-- If samples lie outside of the times of the geometry, then those from its first time on and before its last are used, of both
signals; else all are. -/
theorem C100_trim {p q : Piece} {r : Pieces} (h : createPieces p = .ok (r, q)) (hg : Growing p.geoSpm) (hr : Growing p.rawSpm) :
    q = { p with rawSpm := q.rawSpm, iqM := q.iqM, iqC := q.iqC } ∧
      ((∀ t ∈ p.rawSpm, p.geoSpm.getD 0 0 ≤ t ∧ t ≤ p.geoSpm.getD (p.geoSpm.length - 1) 0) ∧ q = p ∨
        (∃ t ∈ p.rawSpm, t < p.geoSpm.getD 0 0 ∨ p.geoSpm.getD (p.geoSpm.length - 1) 0 < t) ∧
        q.rawSpm.zip q.iqM = (p.rawSpm.zip p.iqM).filter
          (fun x => decide (p.geoSpm.getD 0 0 ≤ x.1 ∧ x.1 < p.geoSpm.getD (p.geoSpm.length - 1) 0)) ∧
        q.rawSpm.zip q.iqC = (p.rawSpm.zip p.iqC).filter
          (fun x => decide (p.geoSpm.getD 0 0 ≤ x.1 ∧ x.1 < p.geoSpm.getD (p.geoSpm.length - 1) 0))) := by
  have ht : trimPiece p = .ok q := by
    unfold createPieces at h
    cases h1 : trimPiece p with
    | error e => rw [h1] at h; cases h
    | ok q' =>
      rw [h1] at h
      simp only [bind, Except.bind] at h
      cases hd : q'.dir with
      | ingress =>
        rw [hd] at h
        cases h
        rfl
      | egress =>
        rw [hd] at h
        cases h
        rfl
      | both =>
        have hd0 : p.dir = .both := by
          unfold trimPiece at h1
          cases a1 : pyMaxL p.geoSpm with
          | error e => rw [a1] at h1; cases h1
          | ok hi =>
            cases a2 : pyMinL p.geoSpm with
            | error e => rw [a1, a2] at h1; cases h1
            | ok lo =>
              rw [a1, a2] at h1
              simp only [bind, Except.bind] at h1
              split at h1
              · cases a3 : firstIndex (fun t => t = p.geoSpm.getD 0 0) p.rawSpm with
                | error e => rw [a3] at h1; cases h1
                | ok i1 =>
                  cases a4 : firstIndex (fun t => t = p.geoSpm.getD (p.geoSpm.length - 1) 0) p.rawSpm with
                  | error e => rw [a3, a4] at h1; cases h1
                  | ok i2 =>
                    rw [a3, a4] at h1
                    cases h1
                    exact hd
              · cases h1
                exact hd
        have hfull : createPieces p = .ok (r, q) := by
          unfold createPieces
          rw [h1]
          simp only [bind, Except.bind]
          exact h
        rw [← h1]
        exact (createPieces_both hfull hd0).1
  have h0 : 0 < p.geoSpm.length := by
    unfold trimPiece at ht
    rcases Nat.eq_zero_or_pos p.geoSpm.length with h0 | h0
    · rw [List.length_eq_zero_iff.mp h0] at ht
      cases ht
    · exact h0
  unfold trimPiece at ht
  rw [max_growing hg h0, min_growing hg h0] at ht
  simp only [bind, Except.bind] at ht
  split at ht
  · rename_i ho
    have hle : p.geoSpm.getD 0 0 ≤ p.geoSpm.getD (p.geoSpm.length - 1) 0 := hg.le (Nat.zero_le _) (by omega)
    cases a3 : firstIndex (fun t => t = p.geoSpm.getD 0 0) p.rawSpm with
    | error e => rw [a3] at ht; cases ht
    | ok i1 =>
      cases a4 : firstIndex (fun t => t = p.geoSpm.getD (p.geoSpm.length - 1) 0) p.rawSpm with
      | error e => rw [a3, a4] at ht; cases ht
      | ok i2 =>
        rw [a3, a4] at ht
        cases ht
        refine ⟨rfl, .inr ⟨?_, slice_between hr hle a3 a4, slice_between hr hle a3 a4⟩⟩
        rw [Bool.or_eq_true, List.any_eq_true, List.any_eq_true] at ho
        rcases ho with ⟨t, t1, t2⟩ | ⟨t, t1, t2⟩
        · exact ⟨t, t1, .inr (by simpa using t2)⟩
        · exact ⟨t, t1, .inl (by simpa using t2)⟩
  · rename_i ho
    cases ht
    refine ⟨rfl, .inl ⟨fun t ht => ?_, rfl⟩⟩
    rw [Bool.or_eq_true, List.any_eq_true, List.any_eq_true, not_or] at ho
    constructor
    · by_contra hc
      exact ho.2 ⟨t, ht, by simpa using hc⟩
    · by_contra hc
      exact ho.1 ⟨t, ht, by simpa using hc⟩

/-- The first profile of a chord has the rows of geometry, raw data and calibration earlier than one second before the time `t` of
the first row with the new sign of the velocity, the second one those from one second after it on. -/
theorem C100_rows {p q : Piece} {r : Pieces} (h : createPieces p = .ok (r, q)) (hd : p.dir = .both) (hg : Growing q.geoSpm)
    (hr : Growing q.rawSpm) (hc : Growing q.calSpm) :
    ∃ i t ing egr, r = ⟨some ing, some egr⟩ ∧ i + 1 < q.geoSpm.length ∧ t = q.geoSpm.getD (i + 1) 0 ∧
      ¬ ((0 < q.geoDot.getD (i + 1) 0 ↔ 0 < q.geoDot.getD i 0) ∧ (q.geoDot.getD (i + 1) 0 < 0 ↔ q.geoDot.getD i 0 < 0)) ∧
      (∀ k, k < i → (0 < q.geoDot.getD (k + 1) 0 ↔ 0 < q.geoDot.getD k 0) ∧ (q.geoDot.getD (k + 1) 0 < 0 ↔ q.geoDot.getD k 0 < 0)) ∧
      ing.geoSpm.zip ing.geoRho = (q.geoSpm.zip q.geoRho).filter (fun x => decide (x.1 < t - 1)) ∧
      ing.geoSpm.zip ing.geoDot = (q.geoSpm.zip q.geoDot).filter (fun x => decide (x.1 < t - 1)) ∧
      ing.geoCols.map (ing.geoSpm.zip ·) = q.geoCols.map (fun c => (q.geoSpm.zip c).filter (fun x => decide (x.1 < t - 1))) ∧
      ing.rawSpm.zip ing.iqM = (q.rawSpm.zip q.iqM).filter (fun x => decide (x.1 < t - 1)) ∧
      ing.rawSpm.zip ing.iqC = (q.rawSpm.zip q.iqC).filter (fun x => decide (x.1 < t - 1)) ∧
      ing.calCols.map (ing.calSpm.zip ·) = q.calCols.map (fun c => (q.calSpm.zip c).filter (fun x => decide (x.1 < t - 1))) ∧
      egr.geoSpm.zip egr.geoRho = (q.geoSpm.zip q.geoRho).filter (fun x => decide (t + 1 ≤ x.1)) ∧
      egr.geoSpm.zip egr.geoDot = (q.geoSpm.zip q.geoDot).filter (fun x => decide (t + 1 ≤ x.1)) ∧
      egr.geoCols.map (egr.geoSpm.zip ·) = q.geoCols.map (fun c => (q.geoSpm.zip c).filter (fun x => decide (t + 1 ≤ x.1))) ∧
      egr.rawSpm.zip egr.iqM = (q.rawSpm.zip q.iqM).filter (fun x => decide (t + 1 ≤ x.1)) ∧
      egr.rawSpm.zip egr.iqC = (q.rawSpm.zip q.iqC).filter (fun x => decide (t + 1 ≤ x.1)) ∧
      egr.calCols.map (egr.calSpm.zip ·) = q.calCols.map (fun c => (q.calSpm.zip c).filter (fun x => decide (t + 1 ≤ x.1))) := by
  obtain ⟨-, i, ing, egr, t, gI, rI, cI, gE, rE, cE, hrr, i1, i2, i3, ht, e1, e2, e3, e4, e5, e6, -, -, hi, he⟩ := createPieces_both h hd
  rw [hi, he] at hrr
  refine ⟨i, t, _, _, hrr, i3, ht, ?_, ?_, take_before hg e1, take_before hg e1, ?_, take_before hr e2, take_before hr e2, ?_,
    drop_after hg e4, drop_after hg e4, ?_, drop_after hr e5, drop_after hr e5, ?_⟩
  · rw [← sgn_eq]
    have := (List.mem_filter.mp i1).2
    simpa using this
  · intro k hk
    rw [← sgn_eq]
    by_contra hne
    have hk1 : k ∈ signChanges q.geoDot := by
      refine List.mem_filter.mpr ⟨?_, by simpa using hne⟩
      have := List.mem_range.mp (List.mem_filter.mp i1).1
      exact List.mem_range.mpr (by omega)
    have := i2 k hk1
    omega
  · simp only [List.map_map]
    exact List.map_congr_left fun c _ => take_before hg e1
  · simp only [List.map_map]
    exact List.map_congr_left fun c _ => take_before hc e3
  · simp only [List.map_map]
    exact List.map_congr_left fun c _ => drop_after hg e4
  · simp only [List.map_map]
    exact List.map_congr_left fun c _ => drop_after hc e6

/-- For a chord that comes inwards and then goes outwards, the first profile is the ingress, the second one the egress. -/
theorem C100_chord_partial {p q : Piece} {r : Pieces} (h : createPieces p = .ok (r, q)) (hd : p.dir = .both) (hg : Growing q.geoSpm)
    {K : Nat} (hK : 0 < K) (hv : ∀ i, i < K → q.geoDot.getD i 0 < 0) (hv' : ∀ i, K ≤ i → i < q.geoDot.length → 0 < q.geoDot.getD i 0)
    (hf : Falling (q.geoRho.take K)) (hgr : Growing (q.geoRho.drop K)) :
    ∃ ing egr, r = ⟨some ing, some egr⟩ ∧ ing.dir = .ingress ∧ egr.dir = .egress ∧ Falling ing.geoRho ∧ Growing egr.geoRho := by
  obtain ⟨-, i, ing, egr, t, gI, rI, cI, gE, rE, cE, hrr, i1, i2, i3, ht, e1, e2, e3, e4, e5, e6, d1, d2, hi, he⟩ := createPieces_both h hd
  have hiK : i + 1 = K := by
    obtain ⟨m1, m2⟩ := List.mem_filter.mp i1
    have m1 := List.mem_range.mp m1
    have m2 : sgn (q.geoDot.getD (i + 1) 0) - sgn (q.geoDot.getD i 0) ≠ 0 := by simpa using m2
    rw [Ne, sgn_eq] at m2
    rcases Nat.lt_trichotomy (i + 1) K with hlt | heq | hgt
    · exact absurd ⟨⟨fun h => absurd h (not_lt.mpr (hv _ hlt).le), fun h => absurd h (not_lt.mpr (hv _ (by omega)).le)⟩,
        ⟨fun _ => hv _ (by omega), fun _ => hv _ hlt⟩⟩ m2
    · exact heq
    · have a1 := hv' (i + 1) (by omega) (by omega)
      have a2 := hv' i (by omega) (by omega)
      exact absurd ⟨⟨fun _ => a2, fun _ => a1⟩, ⟨fun h => absurd h (not_lt.mpr a1.le), fun h => absurd h (not_lt.mpr a2.le)⟩⟩ m2
  have g1 := firstIndex_growing hg e1
  have g2 := firstIndex_growing hg e4
  have k1 : gI < K := by
    have := (g1.2.2 (i + 1) i3).not.mp (by rw [ht]; linarith)
    by_contra hc
    have := hg.le (show i + 1 ≤ gI by omega) g1.1
    rw [g1.2.1, ht] at this
    linarith
  have k2 : K ≤ gE := by
    by_contra hc
    have := hg.le (show gE ≤ i + 1 by omega) i3
    rw [g2.2.1, ht] at this
    linarith
  have f1 : Falling (q.geoRho.take gI) := by
    refine List.Pairwise.sublist ?_ hf
    rw [show q.geoRho.take gI = (q.geoRho.take K).take gI by rw [List.take_take, min_eq_left k1.le]]
    exact List.take_sublist _ _
  have f2 : Growing (q.geoRho.drop gE) := by
    refine List.Pairwise.sublist ?_ hgr
    rw [show q.geoRho.drop gE = (q.geoRho.drop K).drop (gE - K) by rw [List.drop_drop]; congr 1; omega]
    exact List.drop_sublist _ _
  refine ⟨ing, egr, hrr, ?_, ?_, by rw [hi]; exact f1, by rw [he]; exact f2⟩
  · obtain ⟨l1, l2, -⟩ := pieceDir_ok d1
    rw [l2, getD_at l1, getD_at (by omega)]
    exact List.pairwise_iff_getElem.mp f1 0 1 (by omega) l1 (by omega)
  · obtain ⟨l1, -, l2⟩ := pieceDir_ok d2
    rw [l2]
    exact f2.le (Nat.zero_le _) l1

/-- A chord through the rings. -/
def vChord : Piece := ⟨[1, 2, 3, 4, 5, 6, 7], [103, 102, 101, 100, 101, 102, 103], [-1, -1, -1, -1, 1, 1, 1], [[0, 1, 2, 3, 4, 5, 6]],
  [0, 1, 2, 3, 4, 5, 6, 7, 8], [(0, 0), (1, 0), (2, 0), (3, 0), (4, 0), (5, 0), (6, 0), (7, 0), (8, 0)],
  [(0, 0), (1, 0), (2, 0), (3, 0), (4, 0), (5, 0), (6, 0), (7, 0), (8, 0)], [1, 2, 3, 4, 5, 6, 7], [[0, 1, 2, 3, 4, 5, 6]], .both⟩

example : Falling (vChord.geoRho.take 4) ∧ Growing (vChord.geoRho.drop 4) ∧ ∃ r q, createPieces vChord = .ok (r, q) ∧
    (r.ing.map fun p => (p.rawSpm, p.geoRho, p.dir)) = some ([1, 2, 3], [103, 102, 101], .ingress) ∧
    (r.egr.map fun p => (p.rawSpm, p.geoRho, p.dir)) = some ([6], [102, 103], .egress) := by
  unfold Growing Falling
  refine ⟨by decide +kernel, by decide +kernel, ?_⟩
  have h : (createPieces vChord).isOk = true := by decide +kernel
  cases e : createPieces vChord with
  | error x => rw [e] at h; cases h
  | ok y =>
    refine ⟨y.1, y.2, rfl, ?_⟩
    have : (createPieces vChord).map (fun y => ((y.1.ing.map fun p => (p.rawSpm, p.geoRho, p.dir)),
      (y.1.egr.map fun p => (p.rawSpm, p.geoRho, p.dir)))) = .ok (some ([1, 2, 3], [103, 102, 101], .ingress), some ([6], [102, 103], .egress)) := by
      decide +kernel
    rw [e] at this
    simpa [Except.map] using this

/-- Two samples of it lie outside of the geometry. -/
example : Growing vChord.geoSpm ∧ Growing vChord.rawSpm ∧
    (createPieces vChord).map (fun y => (y.2.rawSpm, y.2.iqC)) = .ok ([1, 2, 3, 4, 5, 6], [(1, 0), (2, 0), (3, 0), (4, 0), (5, 0), (6, 0)]) := by
  unfold Growing
  decide +kernel

/-- A chord that goes outwards first. -/
def capChord : Piece := ⟨[1, 2, 3, 4, 5, 6, 7], [100, 101, 102, 103, 102, 101, 100], [1, 1, 1, 1, -1, -1, -1], [],
  [1, 2, 3, 4, 5, 6, 7], [], [], [1, 2, 3, 4, 5, 6, 7], [], .both⟩

/-- What is returned as ingress need not be one: a chord that goes outwards first gives its egress as `dlp_ing` and its ingress as
`dlp_egr`. -/
theorem C100_names_false : ¬ ∀ (p q : Piece) (r : Pieces), createPieces p = .ok (r, q) → p.dir = .both →
    ∀ ing egr, r = ⟨some ing, some egr⟩ → ing.dir = .ingress ∧ egr.dir = .egress := by
  intro h
  have h0 : (createPieces capChord).map (fun y => (y.1.ing.map Piece.dir, y.1.egr.map Piece.dir)) =
      .ok (some .egress, some .ingress) := by decide +kernel
  cases e : createPieces capChord with
  | error x => rw [e] at h0; cases h0
  | ok y =>
    obtain ⟨⟨ing, egr⟩, q⟩ := y
    rw [e] at h0
    simp only [Except.map, Except.ok.injEq, Prod.mk.injEq] at h0
    obtain ⟨h1, h2⟩ := h0
    cases ing with
    | none => cases h1
    | some ing =>
      cases egr with
      | none => cases h2
      | some egr =>
        have := (h _ _ _ e rfl _ _ rfl).1
        simp only [Option.map_some, Option.some.injEq] at h1
        rw [this] at h1
        cases h1

/-- The raw data of the caller are not left as they were. -/
theorem C100_caller_false : ¬ ∀ (p q : Piece) (r : Pieces), createPieces p = .ok (r, q) → q = p := by
  intro h
  have h0 : (createPieces vChord).map (fun y => y.2.rawSpm) = .ok [1, 2, 3, 4, 5, 6] := by decide +kernel
  cases e : createPieces vChord with
  | error x => rw [e] at h0; cases h0
  | ok y =>
    rw [e] at h0
    simp only [Except.map, Except.ok.injEq] at h0
    rw [h _ _ _ e] at h0
    revert h0
    decide +kernel

/-- Raw data that have no sample at the whole seconds of the geometry raise an error. -/
theorem C100_grid_false : ¬ ∀ (p : Piece), Growing p.geoSpm → Growing p.rawSpm → Growing p.calSpm → (signChanges p.geoDot).length = 1 →
    2 ≤ p.rawSpm.length → (createPieces p).isOk = true := by
  intro h
  have := h { vChord with rawSpm := [1 + 1 / 2, 2 + 1 / 2, 3 + 1 / 2, 4 + 1 / 2, 5 + 1 / 2, 6 + 1 / 2] }
    (by unfold Growing; decide +kernel) (by unfold Growing; decide +kernel) (by unfold Growing; decide +kernel) (by decide +kernel)
    (by decide +kernel)
  revert this
  decide +kernel

end Verif.Cal
