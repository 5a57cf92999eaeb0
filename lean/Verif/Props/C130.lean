import Verif.Model.Threshold
import Mathlib.Tactic.FieldSimp
import Mathlib.Tactic.Linarith

/-!
# C130 Threshold optical depth
-/
namespace Verif.Thr
open Real

/-! ### Interpolation -/

open Classical in
/-- The points in the order of the abscissae. -/
noncomputable def srt (s : List (ℝ × ℝ)) : List (ℝ × ℝ) := s.insertionSort (fun p q => p.1 ≤ q.1)

/-- The place of the upper point. -/
noncomputable def upper (s : List (ℝ × ℝ)) (v : ℝ) : Nat :=
  open Classical in min (max (s.countP fun p => decide (p.1 < v)) 1) (s.length - 1)

/-- The line through two neighbours. -/
noncomputable def between (s : List (ℝ × ℝ)) (v : ℝ) : ℝ :=
  let p := s.getD (upper s v - 1) (0, 0)
  let q := s.getD (upper s v) (0, 0)
  (q.2 - p.2) / (q.1 - p.1) * (v - p.1) + p.2

theorem interp_eq (x y : List ℝ) (v : ℝ) : interp1d x y v = between (srt (x.zip y)) v := rfl

theorem srt_perm (s : List (ℝ × ℝ)) : (srt s).Perm s := List.perm_insertionSort _ _

theorem upper_bounds {s : List (ℝ × ℝ)} (h : 2 ≤ s.length) (v : ℝ) : 1 ≤ upper s v ∧ upper s v < s.length := by
  unfold upper
  omega

theorem getD_mem_of {α : Type} {d : α} {s : List α} {i : Nat} (h : i < s.length) : s.getD i d ∈ s := by
  rw [List.getD_eq_getElem?_getD, List.getElem?_eq_getElem h]
  exact List.getElem_mem h

/-- Points on a line: the interpolation and the extrapolation stay on it. -/
theorem interp_affine {x y : List ℝ} {a b : ℝ} (hl : 2 ≤ (x.zip y).length) (hn : ((x.zip y).map Prod.fst).Nodup)
    (h : ∀ p ∈ x.zip y, p.2 = a * p.1 + b) (v : ℝ) : interp1d x y v = a * v + b := by
  rw [interp_eq]
  have hp := srt_perm (x.zip y)
  have hl' : 2 ≤ (srt (x.zip y)).length := by rw [hp.length_eq]; exact hl
  have hn' : ((srt (x.zip y)).map Prod.fst).Nodup := (hp.map Prod.fst).nodup_iff.2 hn
  obtain ⟨h1, h2⟩ := upper_bounds hl' v
  unfold between
  have ep := h _ (hp.mem_iff.1 (getD_mem_of (d := (0, 0)) (show upper (srt (x.zip y)) v - 1 < _ by omega)))
  have eq := h _ (hp.mem_iff.1 (getD_mem_of (d := (0, 0)) h2))
  have hne : ((srt (x.zip y)).getD (upper (srt (x.zip y)) v) (0, 0)).1 ≠ ((srt (x.zip y)).getD (upper (srt (x.zip y)) v - 1) (0, 0)).1 := by
    intro hc
    rw [List.getD_eq_getElem?_getD, List.getElem?_eq_getElem h2, List.getD_eq_getElem?_getD,
      List.getElem?_eq_getElem (show upper (srt (x.zip y)) v - 1 < _ by omega)] at hc
    have := (List.Nodup.getElem_inj_iff hn' (i := upper (srt (x.zip y)) v) (hi := by rw [List.length_map]; omega)
      (j := upper (srt (x.zip y)) v - 1) (hj := by rw [List.length_map]; omega)).1 (by simpa using hc)
    omega
  simp only
  rw [ep, eq]
  have := sub_ne_zero.2 hne
  field_simp
  ring

theorem interp_const {x y : List ℝ} {c : ℝ} (hl : 2 ≤ (x.zip y).length) (h : ∀ p ∈ x.zip y, p.2 = c) (v : ℝ) : interp1d x y v = c := by
  rw [interp_eq]
  have hp := srt_perm (x.zip y)
  have hl' : 2 ≤ (srt (x.zip y)).length := by rw [hp.length_eq]; exact hl
  obtain ⟨h1, h2⟩ := upper_bounds hl' v
  unfold between
  have ep := h _ (hp.mem_iff.1 (getD_mem_of (d := (0, 0)) (show upper (srt (x.zip y)) v - 1 < _ by omega)))
  have eq := h _ (hp.mem_iff.1 (getD_mem_of (d := (0, 0)) h2))
  simp only
  rw [ep, eq]
  simp

theorem interp_shift {x y : List ℝ} (hl : 2 ≤ (x.zip y).length) (k v : ℝ) : interp1d x (y.map (· + k)) v = interp1d x y v + k := by
  have hz : x.zip (y.map (· + k)) = (x.zip y).map fun p => (p.1, p.2 + k) := by
    rw [List.zip_map_right]
    rfl
  have hs : srt (x.zip (y.map (· + k))) = (srt (x.zip y)).map fun p => (p.1, p.2 + k) := by
    classical
    rw [hz, srt, srt]
    refine (List.map_insertionSort _ _ _ _ ?_).symm
    intro a _ b _
    rfl
  rw [interp_eq, interp_eq, hs]
  have hl' : 2 ≤ (srt (x.zip y)).length := by rw [(srt_perm _).length_eq]; exact hl
  have hu : upper ((srt (x.zip y)).map fun p => (p.1, p.2 + k)) v = upper (srt (x.zip y)) v := by
    unfold upper
    rw [List.countP_map, List.length_map]
    rfl
  obtain ⟨h1, h2⟩ := upper_bounds hl' v
  unfold between
  have g : ∀ i, i < (srt (x.zip y)).length → ((srt (x.zip y)).map fun p => (p.1, p.2 + k)).getD i (0, 0) =
      (((srt (x.zip y)).getD i (0, 0)).1, ((srt (x.zip y)).getD i (0, 0)).2 + k) := by
    intro i hi
    simp only [List.getD_eq_getElem?_getD, List.getElem?_map, List.getElem?_eq_getElem hi]
    rfl
  rw [hu, g _ h2, g _ (by omega)]
  simp only
  ring

theorem srt_unique {s t : List (ℝ × ℝ)} (hp : s.Perm t) (hn : (s.map Prod.fst).Nodup) : srt s = srt t := by
  classical
  have : IsTrans (ℝ × ℝ) (fun p q => p.1 ≤ q.1) := ⟨fun a b c h1 h2 => le_trans h1 h2⟩
  have : Std.Total (fun p q : ℝ × ℝ => p.1 ≤ q.1) := ⟨fun a b => le_total a.1 b.1⟩
  have hst : (srt s).Perm (srt t) := (srt_perm s).trans (hp.trans (srt_perm t).symm)
  refine hst.eq_of_pairwise (le := fun p q => p.1 ≤ q.1) ?_ (List.pairwise_insertionSort _ _) (List.pairwise_insertionSort _ _)
  intro a b ha hb h1 h2
  have ha' := (srt_perm s).mem_iff.1 ha
  have hb' := hp.mem_iff.2 ((srt_perm t).mem_iff.1 hb)
  exact List.inj_on_of_nodup_map hn ha' hb' (le_antisymm h1 h2)

theorem zip_rev {α β : Type} {x : List α} {y : List β} (h : x.length = y.length) : x.reverse.zip y.reverse = (x.zip y).reverse := by
  induction x generalizing y with
  | nil => simp
  | cons a x ih =>
    cases y with
    | nil => simp at h
    | cons b y =>
      have h' : x.length = y.length := by simpa using h
      rw [List.reverse_cons, List.reverse_cons, List.zip_append (by simpa using h'), ih h']
      simp

/-- The order of the points does not matter. -/
theorem interp_reverse {x y : List ℝ} (hxy : x.length = y.length) (hn : x.Nodup) (v : ℝ) : interp1d x.reverse y.reverse v = interp1d x y v := by
  rw [interp_eq, interp_eq]
  have hz : x.reverse.zip y.reverse = (x.zip y).reverse := (zip_rev hxy)
  rw [hz, ← srt_unique (List.reverse_perm _).symm]
  rw [List.map_fst_zip (by omega)]
  exact hn

/-! ### Theorems -/

/-- **C130**, the constant: it is the inverse of 1.205 · 0.32 · 1.65 in the earlier formula. -/
theorem C130_constant : |(1.571733936879165 : ℝ) * (1.205 * 0.32 * 1.65) - 1| < 1 / 10 ^ 15 := by
  rw [abs_lt]
  constructor <;> norm_num

theorem foldl_max_scale {k : ℝ} (hk : 0 < k) : ∀ (l : List ℝ) (m : ℝ), (l.map (k * ·)).foldl max (k * m) = k * l.foldl max m
  | [], _ => rfl
  | a :: l, m => by
    rw [List.map_cons, List.foldl_cons, List.foldl_cons, ← mul_max_of_nonneg _ _ hk.le, foldl_max_scale hk l]

/-- **C130**, the scale of the power does not matter. -/
theorem C130_power (t : Prof) (oetCal pwr : List ℝ) (dBHz : ℝ) {k : ℝ} (hk : 0 < k) :
    threshold t oetCal (pwr.map (k * ·)) dBHz = threshold t oetCal pwr dBHz := by
  have h : snr (pwr.map (k * ·)) dBHz = snr pwr dBHz := by
    have e : (pwr.map (k * ·)).getD 0 0 = k * pwr.getD 0 0 := by
      cases pwr <;> simp
    simp only [snr, e, foldl_max_scale hk, List.map_map]
    apply List.map_congr_left
    intro p _
    simp only [Function.comp_apply]
    rw [mul_div_mul_left _ _ hk.ne']
  simp only [threshold, tauth, h]

theorem le_foldl_maxR : ∀ (l : List ℝ) (m : ℝ), m ≤ l.foldl max m ∧ (∀ p ∈ l, p ≤ l.foldl max m) ∧ (l.foldl max m = m ∨ l.foldl max m ∈ l)
  | [], m => ⟨le_refl _, by simp, Or.inl rfl⟩
  | a :: l, m => by
    obtain ⟨h1, h2, h3⟩ := le_foldl_maxR l (max m a)
    rw [List.foldl_cons]
    refine ⟨(le_max_left _ _).trans h1, ?_, ?_⟩
    · intro p hp
      rcases List.mem_cons.1 hp with rfl | hp
      · exact (le_max_right _ _).trans h1
      · exact h2 p hp
    · rcases h3 with h3 | h3
      · rw [h3]
        rcases max_choice m a with h | h
        · exact Or.inl h
        · exact Or.inr (by rw [h]; simp)
      · exact Or.inr (List.mem_cons_of_mem _ h3)

/-- **C130**, the signal-to-noise ratio: the tabulated value belongs to the largest power. -/
theorem C130_snr {pwr : List ℝ} (hne : pwr ≠ []) (hp : ∀ p ∈ pwr, 0 < p) (dBHz : ℝ) :
    (∀ s ∈ snr pwr dBHz, 0 < s ∧ s ≤ (10 : ℝ) ^ (dBHz / 10)) ∧ (10 : ℝ) ^ (dBHz / 10) ∈ snr pwr dBHz := by
  obtain ⟨p0, l, rfl⟩ : ∃ p0 l, pwr = p0 :: l := by
    cases pwr with
    | nil => exact absurd rfl hne
    | cons a l => exact ⟨a, l, rfl⟩
  obtain ⟨h1, h2, h3⟩ := le_foldl_maxR (p0 :: l) p0
  have hm : 0 < (p0 :: l).foldl max p0 := (hp p0 (by simp)).trans_le h1
  have h10 : (0 : ℝ) < (10 : ℝ) ^ (dBHz / 10) := by positivity
  constructor
  · intro s hs
    obtain ⟨p, hpm, rfl⟩ := List.mem_map.1 hs
    rw [List.getD_cons_zero]
    refine ⟨mul_pos (div_pos (hp p hpm) hm) h10, ?_⟩
    have : p / (p0 :: l).foldl max p0 ≤ 1 := (div_le_one hm).2 (h2 p hpm)
    nlinarith
  · refine List.mem_map.2 ⟨(p0 :: l).foldl max p0, ?_, ?_⟩
    · rcases h3 with h3 | h3
      · rw [h3]; simp
      · exact h3
    · rw [List.getD_cons_zero, div_self hm.ne', one_mul]

theorem zipWith_shift {f g : ℝ → ℝ → ℝ} {c : ℝ} : ∀ {a b : List ℝ}, (∀ x ∈ a, ∀ y ∈ b, f x y = g x y + c) →
    List.zipWith f a b = (List.zipWith g a b).map (· + c)
  | [], _, _ => rfl
  | _ :: _, [], _ => rfl
  | x :: a, y :: b, h => by
    rw [List.zipWith_cons_cons, List.zipWith_cons_cons, List.map_cons, h x (by simp) y (by simp),
      zipWith_shift fun u hu w hw => h u (List.mem_cons_of_mem _ hu) w (List.mem_cons_of_mem _ hw)]

theorem snr_length (pwr : List ℝ) (dBHz : ℝ) : (snr pwr dBHz).length = pwr.length := by simp [snr]

theorem rCal_length (t : Prof) (o : List ℝ) : (rCal t o).length = o.length := by
  unfold rCal
  split <;> simp

theorem tauth_length (t : Prof) {o pwr : List ℝ} (h : pwr.length = o.length) (d : ℝ) : (tauth t o pwr d).length = o.length := by
  simp [tauth, snr_length, gradient, h]

/-- **C130**, the resolution: `k` times the resolution adds `mu ln k` at every point. -/
theorem C130_resolution (t : Prof) {oetCal pwr : List ℝ} (dBHz : ℝ) {k : ℝ} (hk : 0 < k) (hl : pwr.length = oetCal.length) (h2 : 2 ≤ oetCal.length)
    (hp : ∀ p ∈ pwr, 0 < p) (hr : t.res * t.factor ≠ 0) (hv : ∀ v ∈ gradient (rCal t oetCal) oetCal, v ≠ 0) :
    threshold { t with res := k * t.res } oetCal pwr dBHz =
      (threshold t oetCal pwr dBHz).map (· + |sin (t.B.getD 0 0 * (π / 180))| * log k) := by
  have hne : pwr ≠ [] := by
    rintro rfl
    simp at hl
    omega
  have hs := (C130_snr hne hp dBHz).1
  have e : tauth { t with res := k * t.res } oetCal pwr dBHz =
      (tauth t oetCal pwr dBHz).map (· + |sin (t.B.getD 0 0 * (π / 180))| * log k) := by
    refine zipWith_shift ?_
    intro s hsm v hvm
    have h1 : (1.571733936879165 : ℝ) * s * (k * t.res * t.factor) / |v| = (1.571733936879165 * s * (t.res * t.factor) / |v|) * k := by ring
    have h2 : (1.571733936879165 : ℝ) * s * (t.res * t.factor) / |v| ≠ 0 :=
      div_ne_zero (mul_ne_zero (mul_ne_zero (by norm_num) (hs s hsm).1.ne') hr) (abs_ne_zero.2 (hv v hvm))
    show |sin (t.B.getD 0 0 * (π / 180))| * log ((1.571733936879165 : ℝ) * s * (k * t.res * t.factor) / |v|) = _
    rw [h1, log_mul h2 hk.ne', mul_add]
  have hrc : rCal { t with res := k * t.res } oetCal = rCal t oetCal := rfl
  simp only [threshold, e, hrc, List.map_map]
  apply List.map_congr_left
  intro r _
  rw [interp_shift]
  · rfl
  · rw [List.length_zip, rCal_length, tauth_length t hl]
    omega

theorem gradient_affine {x f : List ℝ} {a b : ℝ} (hx : x.Nodup) (h3 : 3 ≤ x.length) (hf : f = x.map fun t => a * t + b) :
    ∀ g ∈ gradient f x, g = a := by
  intro g hg
  obtain ⟨i, hi, rfl⟩ := List.mem_map.1 hg
  have hi := List.mem_range.1 hi
  have key : ∀ k, 1 ≤ k → k + 1 < x.length → x.getD k 0 - x.getD (k - 1) 0 ≠ 0 ∧ x.getD (k + 1) 0 - x.getD k 0 ≠ 0 ∧
      x.getD (k + 1) 0 - x.getD (k - 1) 0 ≠ 0 := by
    intro k h1 h2
    have e : ∀ j, j < x.length → ∀ l, l < x.length → j ≠ l → x.getD j 0 - x.getD l 0 ≠ 0 := by
      intro j hj l hl hne hc
      rw [List.getD_eq_getElem?_getD, List.getElem?_eq_getElem hj, List.getD_eq_getElem?_getD, List.getElem?_eq_getElem hl] at hc
      exact hne ((List.Nodup.getElem_inj_iff hx).1 (sub_eq_zero.1 hc))
    exact ⟨e _ (by omega) _ (by omega) (by omega), e _ (by omega) _ (by omega) (by omega), e _ (by omega) _ (by omega) (by omega)⟩
  have fk : ∀ k, k < x.length → f.getD k 0 = a * x.getD k 0 + b := by
    intro k hk
    rw [hf]
    simp only [List.getD_eq_getElem?_getD, List.getElem?_map, List.getElem?_eq_getElem hk]
    rfl
  unfold gradientAt
  by_cases h0 : i = 0
  · obtain ⟨d1, d2, d3⟩ := key 1 (by omega) (by omega)
    simp only [if_pos h0]
    rw [fk _ (by omega), fk _ (by omega), fk _ (by omega)]
    have d4 : x.getD 1 0 - x.getD (1 - 1) 0 + (x.getD (1 + 1) 0 - x.getD 1 0) ≠ 0 := by
      intro hc; exact d3 (by linarith)
    field_simp
    ring
  · by_cases hn : i = x.length - 1
    · obtain ⟨d1, d2, d3⟩ := key (x.length - 2) (by omega) (by omega)
      simp only [if_neg h0, if_pos hn]
      rw [fk _ (by omega), fk _ (by omega), fk _ (by omega)]
      have d4 : x.getD (x.length - 2) 0 - x.getD (x.length - 2 - 1) 0 + (x.getD (x.length - 2 + 1) 0 - x.getD (x.length - 2) 0) ≠ 0 := by
        intro hc; exact d3 (by linarith)
      field_simp
      ring
    · obtain ⟨d1, d2, d3⟩ := key i (by omega) (by omega)
      simp only [if_neg h0, if_neg hn]
      rw [fk _ (by omega), fk _ (by omega), fk _ (by omega)]
      have d4 : x.getD i 0 - x.getD (i - 1) 0 + (x.getD (i + 1) 0 - x.getD i 0) ≠ 0 := by
        intro hc; exact d3 (by linarith)
      field_simp
      ring

theorem foldl_max_const {p : ℝ} : ∀ n : Nat, (List.replicate n p).foldl max p = p
  | 0 => rfl
  | n + 1 => by rw [List.replicate_succ, List.foldl_cons, max_self, foldl_max_const n]

theorem rCal_affine {t : Prof} {r0 v : ℝ} (ht : t.oet.Nodup) (h2 : 2 ≤ t.oet.length) (hr : t.rho = t.oet.map fun s => v * s + r0) (o : List ℝ) :
    rCal t o = o.map fun s => v * s + r0 := by
  have aff : ∀ (x : List ℝ), x.Nodup → 2 ≤ x.length → ∀ s, interp1d x (x.map fun s => v * s + r0) s = v * s + r0 := by
    intro x hx hl s
    refine interp_affine (by simpa using hl) ?_ ?_ s
    · rw [List.map_fst_zip (by simp)]
      exact hx
    · intro p hp
      rw [List.zip_map_right] at hp
      obtain ⟨q, hq, rfl⟩ := List.mem_map.1 hp
      have : q.1 = q.2 := by
        rw [List.zip_eq_zipWith] at hq
        obtain ⟨i, hi, rfl⟩ := List.mem_iff_getElem.1 hq
        simp
      simp only [Prod.map, id, this]
  unfold rCal
  split
  · have e : t.rho.reverse = t.oet.reverse.map fun s => v * s + r0 := by rw [hr, List.map_reverse]
    rw [e, List.map_congr_left fun s _ => aff t.oet.reverse (List.nodup_reverse.2 ht) (by simpa using h2) s,
      List.map_reverse, List.reverse_reverse]
  · rw [hr]
    exact List.map_congr_left fun s _ => aff t.oet ht h2 s

/-- **C130**, a steady occultation: with constant radial velocity and constant free-space power the threshold is
`mu ln (SNR ΔR / (0.63624 |v|))` at every point, ingress or egress. -/
theorem C130_uniform {t : Prof} {oetCal pwr : List ℝ} {r0 v p : ℝ} (dBHz : ℝ) (ht : t.oet.Nodup) (h2 : 2 ≤ t.oet.length)
    (hr : t.rho = t.oet.map fun s => v * s + r0) (ho : oetCal.Nodup) (h3 : 3 ≤ oetCal.length) (hpw : pwr = List.replicate oetCal.length p)
    (hp : 0 < p) :
    ∀ y ∈ threshold t oetCal pwr dBHz,
      y = |sin (t.B.getD 0 0 * (π / 180))| * log (1.571733936879165 * (10 : ℝ) ^ (dBHz / 10) * (t.res * t.factor) / |v|) := by
  intro y hy
  obtain ⟨r, -, rfl⟩ := List.mem_map.1 hy
  have hg := gradient_affine ho h3 (rCal_affine ht h2 hr oetCal)
  have hl : pwr.length = oetCal.length := by rw [hpw, List.length_replicate]
  have hs : ∀ s ∈ snr pwr dBHz, s = (10 : ℝ) ^ (dBHz / 10) := by
    intro s hs
    obtain ⟨q, hq, rfl⟩ := List.mem_map.1 hs
    rw [hpw] at hq ⊢
    rw [List.eq_of_mem_replicate hq]
    have e : (List.replicate oetCal.length p).getD 0 0 = p := by
      rw [List.getD_eq_getElem?_getD, List.getElem?_replicate_of_lt (by omega)]
      rfl
    rw [e, foldl_max_const, div_self hp.ne', one_mul]
  refine interp_const ?_ ?_ r
  · rw [List.length_zip, rCal_length, tauth_length t hl]
    omega
  · intro q hq
    have hq2 := (List.of_mem_zip (a := q.1) (b := q.2) hq).2
    obtain ⟨i, hi, e⟩ := List.mem_iff_getElem.1 hq2
    rw [← e]
    simp only [tauth, List.getElem_zipWith]
    rw [hs _ (List.getElem_mem _), hg _ (List.getElem_mem _)]

/-- **C130**, the branch for a negative velocity gives the same as the other one. -/
theorem C130_branch (t : Prof) (oetCal pwr : List ℝ) (dBHz : ℝ) (ho : t.oet.Nodup) (hl : t.oet.length = t.rho.length) (vs : List ℝ) :
    threshold { t with rhoDot := vs } oetCal pwr dBHz = threshold t oetCal pwr dBHz := by
  have key : ∀ vs : List ℝ, rCal { t with rhoDot := vs } oetCal = oetCal.map (interp1d t.oet t.rho) := by
    intro vs
    unfold rCal
    split
    · simp only [List.map_reverse, List.reverse_reverse]
      exact List.map_congr_left fun s _ => interp_reverse hl ho s
    · rfl
  have h : rCal { t with rhoDot := vs } oetCal = rCal t oetCal := (key vs).trans (key t.rhoDot).symm
  simp only [threshold, tauth, h]

/-- **C130**: of the elevations only the first one is used. -/
theorem C130_first (t : Prof) (oetCal pwr : List ℝ) (dBHz : ℝ) {B : List ℝ} (hB : B.getD 0 0 = t.B.getD 0 0) :
    threshold { t with B := B } oetCal pwr dBHz = threshold t oetCal pwr dBHz := by
  have h : rCal { t with B := B } oetCal = rCal t oetCal := rfl
  simp only [threshold, tauth, h, hB]

/-- Two points, first with the rings seen from above and then at 30°. -/
noncomputable def demo : Prof := ⟨[0, 1], [0, 1], [90, 30], [1, 1], 1, 1⟩

theorem demo_value : ∀ y ∈ threshold demo [0, 1, 2] [1, 1, 1] 0, y = log 1.571733936879165 := by
  intro y hy
  have := C130_uniform (t := demo) (oetCal := [0, 1, 2]) (pwr := [1, 1, 1]) (r0 := 0) (v := 1) (p := 1) 0 (by simp [demo]) (by simp [demo])
    (by simp [demo]) (by norm_num) (by simp) rfl one_pos y hy
  rw [this]
  have e : (90 : ℝ) * (π / 180) = π / 2 := by ring
  simp [demo, e, sin_pi_div_two]

/-- **C130** is false of an elevation that changes: at the second point the threshold is twice the one for its own elevation. -/
theorem C130_elevation_false : ∃ y, (threshold demo [0, 1, 2] [1, 1, 1] 0)[1]? = some y ∧
    y = 2 * (|sin (demo.B.getD 1 0 * (π / 180))| * log (1.571733936879165 * (10 : ℝ) ^ ((0 : ℝ) / 10) * (1 * 1) / |1|)) ∧ 0 < y := by
  have hl : (threshold demo [0, 1, 2] [1, 1, 1] 0).length = 2 := by simp [threshold, demo]
  refine ⟨(threshold demo [0, 1, 2] [1, 1, 1] 0)[1]'(by omega), List.getElem?_eq_getElem (by omega), ?_, ?_⟩
  · rw [demo_value _ (List.getElem_mem _)]
    have e : (30 : ℝ) * (π / 180) = π / 6 := by ring
    simp [demo, e, sin_pi_div_six]
  · rw [demo_value _ (List.getElem_mem _)]
    exact log_pos (by norm_num)

/-! ### Examples -/

example : threshold { demo with res := 3 * demo.res } [0, 1, 2] [1, 1, 1] 0 =
    (threshold demo [0, 1, 2] [1, 1, 1] 0).map (· + |sin (demo.B.getD 0 0 * (π / 180))| * log 3) := by
  refine C130_resolution demo 0 (by norm_num) rfl (by simp) (by simp) (by simp [demo]) ?_
  intro v hv
  rw [gradient_affine (a := 1) (b := 0) (by norm_num) (by simp)
    (rCal_affine (t := demo) (r0 := 0) (v := 1) (by simp [demo]) (by simp [demo]) (by simp [demo]) [0, 1, 2]) v hv]
  exact one_ne_zero

example : threshold demo [0, 1, 2] [2, 4, 6] 0 = threshold demo [0, 1, 2] [1, 2, 3] 0 := by
  have := C130_power demo [0, 1, 2] [1, 2, 3] 0 (k := 2) two_pos
  norm_num at this
  exact this

example : (10 : ℝ) ^ ((40 : ℝ) / 10) ∈ snr [1, 3, 2] 40 := (C130_snr (by simp) (by simp) 40).2

example : threshold { demo with rhoDot := [-1, -1] } [0, 1, 2] [1, 1, 1] 0 = threshold demo [0, 1, 2] [1, 1, 1] 0 :=
  C130_branch demo _ _ _ (by simp [demo]) (by simp [demo]) _

end Verif.Thr
