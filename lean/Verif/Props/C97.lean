import Verif.Props.C96
import Verif.Props.C94
import Verif.Spec.Dlp
import Mathlib.Tactic.FieldSimp

/-!
# C97: the rows of a profile
-/
namespace Verif.Cal
open Verif.Rsr Verif.Geo Verif.Geo.Spec Verif.Cal.Spec

theorem countP_upto {x : List ℚ} (h : Growing x) {i : Nat} {v : ℚ} (hi : i + 1 < x.length) (h1 : x.getD i 0 ≤ v)
    (h2 : v < x.getD (i + 1) 0) : x.countP (fun t => t ≤ v) = i + 1 := by
  have e : x.filter (fun t => decide (t ≤ v)) = slice x 0 (i + 1) := by
    apply filter_slice _ _ (Nat.zero_le _)
    intro k hk
    rw [decide_eq_true_eq, ← getD_at hk]
    constructor
    · intro hv
      refine ⟨Nat.zero_le _, ?_⟩
      by_contra hc
      have := h.le (show i + 1 ≤ k by omega) hk
      linarith
    · rintro ⟨-, hv⟩
      exact (h.le (show k ≤ i by omega) (by omega)).trans h1
  rw [List.countP_eq_length_filter, e]
  unfold slice
  rw [List.drop_zero, List.length_take]
  omega

theorem npInterp_inside {x y : List ℚ} (h : Growing x) {i : Nat} {w : ℚ} (hi : i + 1 < x.length) (h0 : 0 ≤ w) (h1 : w < 1) :
    npInterp x y ((1 - w) * x.getD i 0 + w * x.getD (i + 1) 0) = (1 - w) * y.getD i 0 + w * y.getD (i + 1) 0 := by
  have hs := h.lt (Nat.lt_succ_self i) hi
  simp only [Nat.succ_eq_add_one] at hs
  have hs' : 0 < x.getD (i + 1) 0 - x.getD i 0 := sub_pos.mpr hs
  have m1 := mul_nonneg h0 hs'.le
  have m2 := mul_pos (sub_pos.mpr h1) hs'
  have lo : x.getD i 0 ≤ (1 - w) * x.getD i 0 + w * x.getD (i + 1) 0 := by linarith
  have hi' : (1 - w) * x.getD i 0 + w * x.getD (i + 1) 0 < x.getD (i + 1) 0 := by linarith
  unfold npInterp
  split
  · rename_i hc
    have hi0 : i = 0 := by
      by_contra hne
      have := h.lt (show 0 < i by omega) (by omega)
      linarith
    subst hi0
    have hw : w = 0 := by
      by_contra hne
      have := mul_pos (lt_of_le_of_ne h0 (Ne.symm hne)) hs'
      linarith
    rw [hw]
    ring
  · split
    · rename_i hc
      have := h.le (show i + 1 ≤ x.length - 1 by omega) (by omega)
      linarith
    · simp only [countP_upto h hi lo hi', Nat.add_sub_cancel]
      have hne := hs'.ne'
      rw [div_mul_eq_mul_div, div_add' _ _ _ hne, div_eq_iff hne]
      ring

theorem npInterp_last {x y : List ℚ} (h : Growing x) (h2 : 2 ≤ x.length) :
    npInterp x y (x.getD (x.length - 1) 0) = y.getD (x.length - 1) 0 := by
  have := h.lt (show 0 < x.length - 1 by omega) (by omega)
  unfold npInterp
  rw [if_neg (not_le.mpr this), if_pos (le_refl _)]

/-- Between two rows the interpolation gives the value at the same place. -/
theorem npInterp_at {x y : List ℚ} (h : Growing x) {i : Nat} {w v : ℚ} (hi : i + 1 < x.length) (h0 : 0 ≤ w) (h1 : w ≤ 1)
    (hv : At x i w v) : At y i w (npInterp x y v) := by
  unfold At at hv ⊢
  rcases lt_or_eq_of_le h1 with h1 | rfl
  · rw [hv]
    exact npInterp_inside h hi h0 h1
  · have hv' : v = x.getD (i + 1) 0 := by rw [hv]; ring
    have e : (1 - 1) * y.getD i 0 + 1 * y.getD (i + 1) 0 = y.getD (i + 1) 0 := by ring
    rw [hv', e]
    by_cases hl : i + 2 < x.length
    · have := npInterp_inside (y := y) h (i := i + 1) (w := 0) hl (le_refl _) (by norm_num)
      rw [show (1 - 0) * x.getD (i + 1) 0 + 0 * x.getD (i + 1 + 1) 0 = x.getD (i + 1) 0 by ring,
        show (1 - 0) * y.getD (i + 1) 0 + 0 * y.getD (i + 1 + 1) 0 = y.getD (i + 1) 0 by ring] at this
      exact this
    · have := npInterp_last (y := y) h (by omega)
      rwa [show x.length - 1 = i + 1 by omega] at this

theorem interpIn_at {x y : List ℚ} (h : Growing x ∨ Falling x) (hl : x.length = y.length) (h2 : 2 ≤ x.length) {v t : ℚ}
    (ht : interpIn x y v = .ok t) : ∃ i w, i + 1 < x.length ∧ 0 ≤ w ∧ w ≤ 1 ∧ At x i w v ∧ At y i w t := by
  have hne : x ≠ [] := List.ne_nil_of_length_pos (by omega)
  obtain ⟨lo, l1, l2, l3⟩ := pyMinL_spec x hne
  obtain ⟨hi, m1, m2, m3⟩ := pyMaxL_spec x hne
  unfold interpIn at ht
  rw [l1, m1] at ht
  simp only [bind, Except.bind] at ht
  split at ht
  · cases ht
  · rename_i hc
    rw [not_or, not_lt, not_lt] at hc
    cases ht
    have hp : OnPolygon x y v (interp1d x y v) := by
      rcases h with h | h
      · exact interp_growing h hl h2 v ⟨lo, l2, hc.1⟩ ⟨hi, m2, hc.2⟩
      · exact interp_falling h hl h2 v ⟨lo, l2, hc.1⟩ ⟨hi, m2, hc.2⟩
    obtain ⟨i, w, i1, i2, w0, w1, e1, e2⟩ := hp
    exact ⟨i, w, i1, w0, w1, e1, e2⟩

theorem mapM_get {α β : Type} {f : α → Py β} : ∀ {l : List α} {m : List β}, l.mapM f = .ok m →
    l.length = m.length ∧ ∀ k (h : k < l.length) (h' : k < m.length), f l[k] = .ok m[k]
  | [], m, h => by
    cases h
    exact ⟨rfl, fun k hk => by simp at hk⟩
  | a :: l, m, h => by
    rw [List.mapM_cons] at h
    cases h1 : f a with
    | error e => rw [h1] at h; cases h
    | ok b =>
      cases h2 : l.mapM f with
      | error e => rw [h1, h2] at h; cases h
      | ok m' =>
        rw [h1, h2] at h
        cases h
        obtain ⟨e1, e2⟩ := mapM_get h2
        refine ⟨by simp [e1], fun k hk hk' => ?_⟩
        cases k with
        | zero => exact h1
        | succ k => exact e2 k (by simpa using hk) (by simpa using hk')

/-- The places that a mask keeps. -/
def places (m : List Bool) : List Nat := (List.range m.length).filter fun i => m.getD i false

theorem maskList_places {α : Type} (d : α) : ∀ (m : List Bool) (l : List α), m.length = l.length →
    maskList m l = (places m).map fun i => l.getD i d
  | [], [], _ => by simp [maskList, places]
  | b :: m, a :: l, h => by
    have ih := maskList_places d m l (by simpa using h)
    rw [maskList_cons, ih]
    unfold places
    rw [List.length_cons, List.range_succ_eq_map, List.filter_cons, List.filter_map, List.getD_cons_zero]
    have e : ((fun i => (b :: m).getD i false) ∘ Nat.succ) = fun i => m.getD i false := by
      funext i
      simp only [Function.comp_apply, Nat.succ_eq_add_one, List.getD_cons_succ]
    rw [e]
    cases b
    · simp [Function.comp_def]
    · simp [Function.comp_def]

/-- Whether the row with this velocity stays. -/
def Keeps (dir : Dir) (mixed : Prop) (v : ℚ) : Prop := mixed → (dir = .ingress → v ≤ 0) ∧ (dir = .egress → 0 ≤ v)

theorem places_mem {m : List Bool} {i : Nat} (hi : i < m.length) : i ∈ places m ↔ m.getD i false = true := by
  unfold places
  rw [List.mem_filter, List.mem_range]
  exact ⟨fun h => h.2, fun h => ⟨hi, h⟩⟩

theorem setRows_ok {g : DlpIn} {rho spm pNorm : List ℚ} {iq : List (ℚ × ℚ)} {r : DlpRows} (h : setRows g rho spm pNorm iq = .ok r)
    (h1 : rho.length = spm.length) (h2 : pNorm.length = spm.length) (h3 : iq.length = spm.length) :
    ∃ idx : List Nat, idx.Pairwise (· < ·) ∧ (∀ i ∈ idx, i < spm.length) ∧
      r.rho = idx.map (fun i => rho.getD i 0) ∧ r.spm = idx.map (fun i => spm.getD i 0) ∧ r.pNorm = idx.map (fun i => pNorm.getD i 0) ∧
      r.iq = idx.map (fun i => iq.getD i (0, 0)) ∧ r.rhoDot = r.spm.map (npInterp g.spm g.rhoDot) ∧
      r.cols = g.cols.map (fun c => r.spm.map (npInterp g.spm c)) ∧ r.calCols = g.calCols.map (fun c => r.spm.map (npInterp g.spmCal c)) ∧
      ∀ i, i < spm.length → (i ∈ idx ↔ Keeps g.dir ((∃ t ∈ spm, npInterp g.spm g.rhoDot t < 0) ∧ ∃ t ∈ spm, 0 < npInterp g.spm g.rhoDot t)
        (npInterp g.spm g.rhoDot (spm.getD i 0))) := by
  unfold setRows at h
  simp only at h
  cases hlo : pyMinL (spm.map (npInterp g.spm g.rhoDot)) with
  | error e => rw [hlo] at h; cases h
  | ok lo =>
    cases hhi : pyMaxL (spm.map (npInterp g.spm g.rhoDot)) with
    | error e => rw [hlo, hhi] at h; cases h
    | ok hi =>
      rw [hlo, hhi] at h
      simp only [bind, Except.bind] at h
      obtain ⟨l1, l2⟩ := pyMinL_least hlo
      obtain ⟨m1, m2⟩ := pyMaxL_peak hhi
      have mixed : ((∃ t ∈ spm, npInterp g.spm g.rhoDot t < 0) ∧ ∃ t ∈ spm, 0 < npInterp g.spm g.rhoDot t) ↔ lo < 0 ∧ 0 < hi := by
        constructor
        · rintro ⟨⟨t, t1, t2⟩, ⟨u, u1, u2⟩⟩
          exact ⟨(l2 _ (List.mem_map_of_mem t1)).trans_lt t2, u2.trans_le (m2 _ (List.mem_map_of_mem u1))⟩
        · rintro ⟨a1, a2⟩
          obtain ⟨t, t1, t2⟩ := List.mem_map.mp l1
          obtain ⟨u, u1, u2⟩ := List.mem_map.mp m1
          exact ⟨⟨t, t1, t2 ▸ a1⟩, ⟨u, u1, u2 ▸ a2⟩⟩
      have del : ∀ (q : ℚ → Bool) {α : Type} (d : α) (l : List α), l.length = spm.length →
          deleteWhere ((spm.map (npInterp g.spm g.rhoDot)).map q) l =
            (places (((spm.map (npInterp g.spm g.rhoDot)).map q).map not)).map fun i => l.getD i d := by
        intro q α d l hl
        exact maskList_places d _ _ (by simp [hl])
      have lenp : ∀ (q : ℚ → Bool), ((((spm.map (npInterp g.spm g.rhoDot)).map q).map not)).length = spm.length := by
        intro q; simp
      have mem : ∀ (q : ℚ → Bool) i, i < spm.length → (i ∈ places (((spm.map (npInterp g.spm g.rhoDot)).map q).map not) ↔
          q (npInterp g.spm g.rhoDot (spm.getD i 0)) = false) := by
        intro q i hi'
        rw [places_mem (by rw [lenp]; exact hi'), List.getD_eq_getElem?_getD, List.getElem?_eq_getElem (by rw [lenp]; exact hi'),
          getD_at hi']
        simp
      have pw : ∀ m : List Bool, (places m).Pairwise (· < ·) := fun m => List.Pairwise.filter _ List.pairwise_lt_range
      have bd : ∀ (q : ℚ → Bool), ∀ i ∈ places (((spm.map (npInterp g.spm g.rhoDot)).map q).map not), i < spm.length := by
        intro q i hi'
        have := (List.mem_filter.mp hi').1
        rwa [List.mem_range, lenp] at this
      split at h
      · rename_i hm
        cases hd : g.dir with
        | both => rw [hd] at h; cases h
        | ingress =>
          rw [hd] at h
          simp only [pure, Except.pure, Except.ok.injEq] at h
          refine ⟨_, pw _, bd (fun x => decide (0 < x)), ?_⟩
          subst h
          refine ⟨del _ 0 _ h1, del _ 0 _ rfl, del _ 0 _ h2, del _ (0, 0) _ h3, rfl, rfl, rfl, ?_⟩
          intro i hi'
          rw [mem _ i hi', mixed]
          simp [Keeps, hm]
        | egress =>
          rw [hd] at h
          simp only [pure, Except.pure, Except.ok.injEq] at h
          refine ⟨_, pw _, bd (fun x => decide (x < 0)), ?_⟩
          subst h
          refine ⟨del _ 0 _ h1, del _ 0 _ rfl, del _ 0 _ h2, del _ (0, 0) _ h3, rfl, rfl, rfl, ?_⟩
          intro i hi'
          rw [mem _ i hi', mixed]
          simp [Keeps, hm]
      · rename_i hm
        simp only [pure, Except.pure, Except.ok.injEq] at h
        subst h
        have self : ∀ {α : Type} (d : α) (l : List α), l.length = spm.length → l = (List.range spm.length).map fun i => l.getD i d := by
          intro α d l hl
          apply List.ext_getElem
          · simp [hl]
          · intro i a b
            rw [List.getElem_map, List.getElem_range, List.getD_eq_getElem?_getD, List.getElem?_eq_getElem a]
            rfl
        refine ⟨List.range spm.length, List.pairwise_lt_range, fun i hi' => List.mem_range.mp hi', self 0 _ h1, self 0 _ rfl, self 0 _ h2,
          self (0, 0) _ h3, rfl, rfl, rfl, ?_⟩
        intro i hi'
        rw [mixed, List.mem_range]
        exact ⟨fun _ hmm => absurd hmm hm, fun _ => hi'⟩

theorem dlpRows_ok {g : DlpIn} {rho : List ℚ} {iq : List (ℚ × ℚ)} {a b : ℚ} {r : DlpRows} (h : dlpRows g rho iq a b = .ok r)
    (hl : rho.length = iq.length) :
    ∃ (s : List ℚ × List (ℚ × ℚ)) (spm pFree pNorm : List ℚ), sliceRange rho iq a b = .ok s ∧ s.1.length = s.2.length ∧ s.1.length = spm.length ∧ s.1.length = pFree.length ∧
      s.1.length = pNorm.length ∧ (∀ k, k < s.1.length → interpIn g.rho g.spm (s.1.getD k 0) = .ok (spm.getD k 0)) ∧
      (∀ k, k < s.1.length → interpIn g.rhoCal g.pFree (s.1.getD k 0) = .ok (pFree.getD k 0)) ∧
      (∀ k, k < s.1.length → pFree.getD k 0 ≠ 0 ∧ 0 ≤ pNorm.getD k 0 ∧
        pNorm.getD k 0 = ((s.2.getD k (0, 0)).1 ^ 2 + (s.2.getD k (0, 0)).2 ^ 2) / pFree.getD k 0) ∧
      setRows g s.1 spm pNorm s.2 = .ok r := by
  unfold dlpRows at h
  cases h1 : sliceRange rho iq a b with
  | error e => rw [h1] at h; cases h
  | ok s =>
    rw [h1] at h
    simp only [bind, Except.bind] at h
    cases h2 : s.1.mapM (interpIn g.rho g.spm) with
    | error e => rw [h2] at h; cases h
    | ok spm =>
      rw [h2] at h
      simp only at h
      cases h3 : s.1.mapM (interpIn g.rhoCal g.pFree) with
      | error e => rw [h3] at h; cases h
      | ok pFree =>
        rw [h3] at h
        simp only at h
        split at h
        · cases h
        · rename_i hz
          cases h4 : pyMinL (List.zipWith (fun z p => (z.1 ^ 2 + z.2 ^ 2) / p) s.2 pFree) with
          | error e => rw [h4] at h; cases h
          | ok low =>
            rw [h4] at h
            simp only at h
            split at h
            · cases h
            · rename_i hlow
              have hs : s.1.length = s.2.length := by
                obtain ⟨i, j, -, -, -, rfl⟩ := sliceRange_ok h1
                exact slice_length hl _ _
              obtain ⟨e1, e2⟩ := mapM_get h2
              obtain ⟨e3, e4⟩ := mapM_get h3
              have hn : s.1.length = (List.zipWith (fun z p => (z.1 ^ 2 + z.2 ^ 2) / p) s.2 pFree).length := by
                rw [List.length_zipWith]; omega
              refine ⟨s, spm, pFree, _, rfl, hs, e1, e3, hn, ?_, ?_, ?_, h⟩
              · intro k hk
                rw [getD_at hk, getD_at (e1 ▸ hk)]
                exact e2 k hk _
              · intro k hk
                rw [getD_at hk, getD_at (e3 ▸ hk)]
                exact e4 k hk _
              · intro k hk
                refine ⟨?_, ?_, ?_⟩
                · intro h0
                  apply hz
                  rw [List.any_eq_true]
                  refine ⟨pFree.getD k 0, ?_, by rw [h0]; rfl⟩
                  rw [getD_at (e3 ▸ hk)]
                  exact List.getElem_mem _
                · rw [getD_at (hn ▸ hk)]
                  exact (not_lt.mp hlow).trans ((pyMinL_least h4).2 _ (List.getElem_mem _))
                · rw [getD_at (hn ▸ hk), getD_at (e3 ▸ hk), List.getElem_zipWith, List.getD_eq_getElem?_getD,
                    List.getElem?_eq_getElem (hs ▸ hk)]
                  rfl

theorem map_at {β : Type} (idx : List Nat) (f : Nat → β) (d : β) {k : Nat} (hk : k < idx.length) :
    (idx.map f).getD k d = f idx[k] := by
  rw [List.getD_eq_getElem?_getD, List.getElem?_eq_getElem (by simpa using hk)]
  simp

theorem map_atQ (l : List ℚ) (f : ℚ → ℚ) {k : Nat} (hk : k < l.length) : (l.map f).getD k 0 = f (l.getD k 0) := by
  rw [getD_at (by simpa using hk), getD_at hk, List.getElem_map]

/-- All columns of a row belong to one place between two rows of the geometry, and the power is that of the signal at the radius of
the row in units of the free-space power at this radius. -/
theorem C97_rows_partial {g : DlpIn} {rho : List ℚ} {iq : List (ℚ × ℚ)} {a b : ℚ} {r : DlpRows} (hs : Growing g.spm)
    (hr : Growing g.rho ∨ Falling g.rho) (hl : g.rho.length = g.spm.length) (h2 : 2 ≤ g.rho.length)
    (hc : Growing g.rhoCal ∨ Falling g.rhoCal) (hcl : g.rhoCal.length = g.pFree.length) (hc2 : 2 ≤ g.rhoCal.length)
    (hsc : Growing g.spmCal) (hiq : rho.length = iq.length) (h : dlpRows g rho iq a b = .ok r) :
    r.spm.length = r.rho.length ∧ r.pNorm.length = r.rho.length ∧ r.iq.length = r.rho.length ∧ r.rhoDot.length = r.rho.length ∧
    (∀ c ∈ r.cols, c.length = r.rho.length) ∧ r.cols.length = g.cols.length ∧
    ∀ k, k < r.rho.length →
      (r.rho.getD k 0, r.iq.getD k (0, 0)) ∈ rho.zip iq ∧
      (∃ i w, i + 1 < g.rho.length ∧ 0 ≤ w ∧ w ≤ 1 ∧ At g.rho i w (r.rho.getD k 0) ∧ At g.spm i w (r.spm.getD k 0) ∧
        At g.rhoDot i w (r.rhoDot.getD k 0) ∧ ∀ m, m < g.cols.length → At (g.cols.getD m []) i w ((r.cols.getD m []).getD k 0)) ∧
      (∃ i w p, i + 1 < g.rhoCal.length ∧ 0 ≤ w ∧ w ≤ 1 ∧ At g.rhoCal i w (r.rho.getD k 0) ∧ At g.pFree i w p ∧ p ≠ 0 ∧
        0 ≤ r.pNorm.getD k 0 ∧ r.pNorm.getD k 0 * p = (r.iq.getD k (0, 0)).1 ^ 2 + (r.iq.getD k (0, 0)).2 ^ 2) ∧
      (∀ i w, i + 1 < g.spmCal.length → 0 ≤ w → w ≤ 1 → At g.spmCal i w (r.spm.getD k 0) →
        ∀ m, m < g.calCols.length → At (g.calCols.getD m []) i w ((r.calCols.getD m []).getD k 0)) := by
  obtain ⟨s, spm, pFree, pNorm, q1, q2, q3, q4, q5, q6, q7, q8, q9⟩ := dlpRows_ok h hiq
  obtain ⟨idx, -, bd, r1, r2, r3, r4, r5, r6, r7, -⟩ := setRows_ok q9 q3 (by omega) (by omega)
  have n : r.rho.length = idx.length := by rw [r1]; simp
  have nspm : r.spm.length = r.rho.length := by rw [n, r2]; simp
  refine ⟨nspm, by rw [n, r3]; simp, by rw [n, r4]; simp, by rw [r5, List.length_map, nspm], ?_, by rw [r6]; simp, ?_⟩
  · intro c hc'
    rw [r6] at hc'
    obtain ⟨c', -, rfl⟩ := List.mem_map.mp hc'
    rw [List.length_map, nspm]
  · intro k hk
    have hk' : k < idx.length := n ▸ hk
    have hik : idx[k] < s.1.length := q3 ▸ bd _ (List.getElem_mem hk')
    have ea : r.rho.getD k 0 = s.1.getD idx[k] 0 := by rw [r1]; exact map_at _ _ _ hk'
    have eb : r.spm.getD k 0 = spm.getD idx[k] 0 := by rw [r2]; exact map_at _ _ _ hk'
    have ec : r.pNorm.getD k 0 = pNorm.getD idx[k] 0 := by rw [r3]; exact map_at _ _ _ hk'
    have ed : r.iq.getD k (0, 0) = s.2.getD idx[k] (0, 0) := by rw [r4]; exact map_at _ _ _ hk'
    refine ⟨?_, ?_, ?_, ?_⟩
    · rw [ea, ed]
      obtain ⟨i, j, -, -, -, rfl⟩ := sliceRange_ok q1
      have hz : (slice rho i (j + 1)).zip (slice iq i (j + 1)) <:+: rho.zip iq := by
        rw [slice_zip]
        exact (List.drop_suffix _ _).isInfix.trans (List.take_prefix _ _).isInfix
      apply hz.subset
      rw [getD_at hik, List.getD_eq_getElem?_getD, List.getElem?_eq_getElem (q2 ▸ hik), Option.getD_some, List.mem_iff_getElem]
      refine ⟨idx[k], by rw [List.length_zip]; exact lt_min hik (q2 ▸ hik), by rw [List.getElem_zip]⟩
    · obtain ⟨i, w, i1, w0, w1, u1, u2⟩ := interpIn_at hr hl h2 (q6 idx[k] hik)
      refine ⟨i, w, i1, w0, w1, ea ▸ u1, eb ▸ u2, ?_, ?_⟩
      · rw [r5, map_atQ _ _ (nspm ▸ hk), eb]
        exact npInterp_at hs (hl ▸ i1) w0 w1 u2
      · intro m hm
        rw [r6, List.getD_eq_getElem?_getD (l := List.map _ g.cols), List.getElem?_map, List.getElem?_eq_getElem hm,
          List.getD_eq_getElem?_getD (l := g.cols), List.getElem?_eq_getElem hm]
        simp only [Option.map_some, Option.getD_some]
        rw [map_atQ _ _ (nspm ▸ hk), eb]
        exact npInterp_at hs (hl ▸ i1) w0 w1 u2
    · obtain ⟨i, w, i1, w0, w1, u1, u2⟩ := interpIn_at hc hcl hc2 (q7 idx[k] hik)
      obtain ⟨z1, z2, z3⟩ := q8 idx[k] hik
      refine ⟨i, w, _, i1, w0, w1, ea ▸ u1, u2, z1, ec ▸ z2, ?_⟩
      rw [ec, ed, z3, div_mul_cancel₀ _ z1]
    · intro i w i1 w0 w1 u m hm
      rw [r7, List.getD_eq_getElem?_getD (l := List.map _ g.calCols), List.getElem?_map, List.getElem?_eq_getElem hm,
        List.getD_eq_getElem?_getD (l := g.calCols), List.getElem?_eq_getElem hm]
      simp only [Option.map_some, Option.getD_some]
      rw [map_atQ _ _ (nspm ▸ hk)]
      exact npInterp_at hsc i1 w0 w1 u

/-- Two rows of a geometry whose longitude passes 360°. -/
def wrapped : DlpIn :=
  ⟨[100, 104], [10, 12], [2, 2], [[359, 1]], .egress, [9, 13], [98, 106], [4, 4], [[1, 5]]⟩

example : Growing wrapped.spm ∧ Growing wrapped.rho ∧ Growing wrapped.rhoCal ∧ Growing wrapped.spmCal ∧
    dlpRows wrapped [101, 102, 103] [(2, 0), (0, 1), (1, 1)] 101 103 =
      .ok ⟨[101, 102, 103], [21 / 2, 11, 23 / 2], [1, 1 / 4, 1 / 2], [(2, 0), (0, 1), (1, 1)], [2, 2, 2], [[539 / 2, 180, 181 / 2]],
        [[5 / 2, 3, 7 / 2]]⟩ := by
  unfold Growing
  decide +kernel

/-- Where the longitude passes 360° the profile has longitudes on the other side of the planet. -/
theorem C97_longitude_false : ∃ (g : DlpIn) (rho : List ℚ) (iq : List (ℚ × ℚ)) (a b : ℚ) (r : DlpRows), Growing g.spm ∧ Growing g.rho ∧
    g.cols = [[359, 1]] ∧ dlpRows g rho iq a b = .ok r ∧ ∃ x ∈ r.cols.getD 0 [], x = 180 := by
  refine ⟨wrapped, [101, 102, 103], [(2, 0), (0, 1), (1, 1)], 101, 103,
    ⟨[101, 102, 103], [21 / 2, 11, 23 / 2], [1, 1 / 4, 1 / 2], [(2, 0), (0, 1), (1, 1)], [2, 2, 2], [[539 / 2, 180, 181 / 2]],
        [[5 / 2, 3, 7 / 2]]⟩, ?_⟩
  unfold Growing
  exact ⟨by decide +kernel, by decide +kernel, rfl, by decide +kernel, 180, by decide +kernel, rfl⟩

end Verif.Cal
