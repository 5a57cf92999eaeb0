import Verif.Model.Resample
import Verif.Spec.Resample
import Verif.Props.C88
import Verif.Props.C74
import Verif.Proofs.RsrNum
import Mathlib.Tactic.FieldSimp

/-!
# C90: radii of the resampled signal
-/
namespace Verif.Cal
open Verif.Rsr Verif.Geo Spec Verif.Geo.Spec

theorem climb_spec {step goal : ℚ} : ∀ (n : Nat) (r : ℚ), goal - r ≤ n * step →
    ∃ (k : Nat), (∀ fuel, n ≤ fuel → climb step goal fuel r = some (r + k * step)) ∧ goal ≤ r + k * step ∧
      (r + k * step < goal + step ∨ k = 0) := by
  intro n
  induction n with
  | zero =>
    intro r h
    refine ⟨0, ?_, by push_cast at h ⊢; linarith, .inr rfl⟩
    intro fuel _
    push_cast at h
    unfold climb
    rw [if_neg (by linarith)]
    simp
  | succ n ih =>
    intro r h
    by_cases hr : r < goal
    · obtain ⟨k, k1, k2, k3⟩ := ih (r + step) (by push_cast at h; linarith)
      refine ⟨k + 1, ?_, by push_cast; linarith, ?_⟩
      · intro fuel hf
        obtain ⟨f, rfl⟩ : ∃ f, fuel = f + 1 := ⟨fuel - 1, by omega⟩
        unfold climb
        rw [if_pos hr]
        show climb step goal f (r + step) = _
        rw [k1 f (by omega)]
        push_cast
        congr 1
        ring
      · left
        rcases k3 with k3 | rfl
        · push_cast; linarith
        · push_cast; linarith
    · refine ⟨0, ?_, by push_cast; linarith, .inr rfl⟩
      intro fuel _
      unfold climb
      rw [if_neg hr]
      simp

theorem coarse_least {t : ℚ} : LeastStep t (coarse t) := by
  have h := pyRound_err (40 * t)
  rw [abs_le] at h
  unfold coarse
  simp only
  split
  · rename_i hl
    refine ⟨⟨pyRound (40 * t) + 1, by push_cast; ring⟩, by linarith, ?_⟩
    intro k hk
    have : pyRound (40 * t) + 1 ≤ k := by
      have : (pyRound (40 * t) : ℚ) < k := by linarith
      have : pyRound (40 * t) < k := by exact_mod_cast this
      omega
    have : (pyRound (40 * t) : ℚ) + 1 ≤ k := by exact_mod_cast this
    linarith
  · rename_i hl
    refine ⟨⟨pyRound (40 * t), rfl⟩, by linarith, ?_⟩
    intro k hk
    have : pyRound (40 * t) ≤ k := by
      have : (pyRound (40 * t) : ℚ) < k + 1 := by linarith
      have : pyRound (40 * t) < k + 1 := by exact_mod_cast this
      omega
    have : (pyRound (40 * t) : ℚ) ≤ k := by exact_mod_cast this
    linarith

theorem pyRound_int (k : ℤ) : pyRound k = k := pyRound_near _ _ (by simp)

theorem pyRound_mono1 {x : ℚ} (h : 1 ≤ x) : 1 ≤ pyRound x := by
  have : 1 ≤ ⌊x⌋ := Int.le_floor.mpr (by exact_mod_cast h)
  unfold pyRound
  split_ifs <;> omega

/-- The mean distance of the data that the program computes. -/
def mean (r0 : ℚ) (rho : List ℚ) : ℚ := (rho.getD (rho.length - 1) 0 - r0) / ((rho.length : ℚ) - 1)

/-- The spacing of the result. -/
def eff (r0 : ℚ) (rho : List ℚ) (dr : ℚ) : ℚ := if dr < mean r0 rho then coarse (mean r0 rho) else dr

/-- The spacing by which the result is labelled. -/
def lab (r0 : ℚ) (rho : List ℚ) (dr : ℚ) : ℚ := if dr < mean r0 rho then coarse (mean r0 rho) else pyRound (dr * 1000) / 1000

theorem preAt_spec {r0 : ℚ} {rho : List ℚ} {dr : ℚ} (h2 : 3 ≤ rho.length) (hr : r0 < rho.getD (rho.length - 1) 0) :
    ∃ (q n : Nat), (q : ℤ) = pyRound (eff r0 rho dr / mean r0 rho) ∧ 1 ≤ q ∧ 1 ≤ n ∧ 0 < eff r0 rho dr ∧
      (n - 1 : ℚ) * (eff r0 rho dr / q) < rho.getD (rho.length - 1) 0 - r0 ∧
      rho.getD (rho.length - 1) 0 - r0 ≤ (n + 1 / 2 : ℚ) * (eff r0 rho dr / q) ∧
      ∀ vec : List ℚ, rho.length = vec.length → preResampleAt r0 rho vec (1 / dr) =
        .ok ⟨(List.range n).map fun i : Nat => r0 + eff r0 rho dr / q * (i : ℚ),
          ((List.range n).map fun i : Nat => r0 + eff r0 rho dr / q * (i : ℚ)).map (interp1d rho vec), q, lab r0 rho dr⟩ := by
  have hlen : (3 : ℚ) ≤ rho.length := by exact_mod_cast h2
  have hm : 0 < mean r0 rho := div_pos (by linarith) (by linarith)
  have habs : |rho.getD (rho.length - 1) 0 - r0| = rho.getD (rho.length - 1) 0 - r0 := abs_of_pos (by linarith)
  have hmul : mean r0 rho * ((rho.length : ℚ) - 1) = rho.getD (rho.length - 1) 0 - r0 := by
    unfold mean
    have : (rho.length : ℚ) - 1 ≠ 0 := by linarith
    field_simp
  have he : mean r0 rho ≤ eff r0 rho dr := by
    unfold eff
    split
    · exact coarse_least.2.1
    · linarith
  have he0 : 0 < eff r0 rho dr := by linarith
  obtain ⟨e1, e2⟩ := abs_le.mp (pyRound_err (eff r0 rho dr / mean r0 rho))
  have hq1 : 1 ≤ pyRound (eff r0 rho dr / mean r0 rho) := pyRound_mono1 ((one_le_div hm).mpr he)
  obtain ⟨q, hq⟩ : ∃ q : ℕ, pyRound (eff r0 rho dr / mean r0 rho) = q := ⟨_, (Int.toNat_of_nonneg (by omega)).symm⟩
  rw [hq] at e1 e2 hq1
  have hq1' : 1 ≤ q := by exact_mod_cast hq1
  have hqq : (1 : ℚ) ≤ q := by exact_mod_cast hq1'
  have hs : 0 < eff r0 rho dr / q := div_pos he0 (by linarith)
  have hq0 : (q : ℚ) ≠ 0 := by linarith
  set D := rho.getD (rho.length - 1) 0 - r0 with hD
  have hDs : 1 ≤ D / (eff r0 rho dr / q) := by
    rw [one_le_div hs, div_le_iff₀ (by linarith), ← hmul]
    have h1 : eff r0 rho dr / mean r0 rho ≤ q + 1 / 2 := by push_cast at e1; linarith
    rw [div_le_iff₀ hm] at h1
    have : mean r0 rho * 2 * q ≤ mean r0 rho * ((rho.length : ℚ) - 1) * q := by
      apply mul_le_mul_of_nonneg_right _ (by linarith)
      apply mul_le_mul_of_nonneg_left _ hm.le
      linarith
    have : mean r0 rho * 1 ≤ mean r0 rho * q := mul_le_mul_of_nonneg_left hqq hm.le
    linarith
  have hn1 := pyRound_mono1 hDs
  obtain ⟨n, hn⟩ : ∃ n : ℕ, pyRound (D / (eff r0 rho dr / q)) = n := ⟨_, (Int.toNat_of_nonneg (by omega)).symm⟩
  obtain ⟨f1, f2⟩ := abs_le.mp (pyRound_err (D / (eff r0 rho dr / q)))
  rw [hn] at f1 f2 hn1
  push_cast at f1 f2
  have hDm : D / (eff r0 rho dr / q) * (eff r0 rho dr / q) = D := div_mul_cancel₀ _ hs.ne'
  refine ⟨q, n, hq.symm, hq1', by exact_mod_cast hn1, he0, ?_, ?_, ?_⟩
  · rw [← hDm]
    apply mul_lt_mul_of_pos_right _ hs
    linarith
  · rw [← hDm]
    apply mul_le_mul_of_nonneg_right _ hs.le
    linarith
  · intro vec hv
    have hts : |rho.getD (rho.length - 1) 0 - r0| / ((rho.length : ℚ) - 1) = mean r0 rho := by rw [habs]; rfl
    have hf : (if 1 / (1 / dr) < mean r0 rho then 1 / coarse (mean r0 rho) else 1 / dr) = 1 / eff r0 rho dr := by
      unfold eff
      rw [one_div_one_div]
      split <;> rfl
    have hl : (if 1 / (1 / dr) < mean r0 rho then coarse (mean r0 rho) else (pyRound (1 / (1 / dr) * 1000) / 1000 : ℚ)) =
        lab r0 rho dr := by
      unfold lab
      rw [one_div_one_div]
    have hqe : 1 / (mean r0 rho * (1 / eff r0 rho dr)) = eff r0 rho dr / mean r0 rho := by
      have := hm.ne'
      have := he0.ne'
      field_simp
    have hg : 1 / ((q : ℚ) * (1 / eff r0 rho dr)) = eff r0 rho dr / q := by
      have := he0.ne'
      field_simp
    unfold preResampleAt
    simp only [hts, hf, hl, hqe, hq]
    rw [if_neg (mul_ne_zero hm.ne' (one_div_ne_zero he0.ne')), if_neg (by omega)]
    push_cast
    rw [if_pos hv]
    simp only [hg, ← hD, habs, hn, Int.toNat_natCast]

theorem resamplePoly_length (h : Nat → Int → ℚ) {q : Nat} (hq : 1 ≤ q) (x : List ℚ) :
    (resamplePoly h q x).length = (x.length + q - 1) / q := by
  unfold resamplePoly
  split
  · rename_i h1
    subst h1
    simp
  · simp

theorem map_range_ne {n : Nat} (hn : 1 ≤ n) (f : Nat → ℚ) :
    (List.range n).map f = f 0 :: (List.range (n - 1)).map (fun i => f (i + 1)) := by
  obtain ⟨m, rfl⟩ : ∃ m, n = m + 1 := ⟨n - 1, by omega⟩
  rw [List.range_succ_eq_map]
  simp

/-- The result for data in order of increasing radius. -/
theorem resample_up {rho : List ℚ} {iq : List (ℚ × ℚ)} {dr : ℚ} (h : Nat → Int → ℚ) (h1 : Growing rho) (h2 : 3 ≤ rho.length)
    (h3 : iq.length = rho.length) (hd : 0 < dr) (h4 : rho.getD 0 0 + max dr (1 / 2) < rho.getD (rho.length - 1) 0) :
    ∃ (f0 k q n : Nat) (r0 : ℚ), r0 = pyRound (rho.getD 0 0) + k * dr ∧ rho.getD 0 0 ≤ r0 ∧ r0 ≤ rho.getD 0 0 + max dr (1 / 2) ∧
      (q : ℤ) = pyRound (eff r0 rho dr / mean r0 rho) ∧ 1 ≤ q ∧ 1 ≤ n ∧ 0 < eff r0 rho dr ∧
      (n - 1 : ℚ) * (eff r0 rho dr / q) < rho.getD (rho.length - 1) 0 - r0 ∧
      rho.getD (rho.length - 1) 0 - r0 ≤ (n + 1 / 2 : ℚ) * (eff r0 rho dr / q) ∧
      ∀ fuel, f0 ≤ fuel → resampleIQ h fuel rho iq dr = some (.ok
        ((List.range ((n + q - 1) / q)).map fun i : Nat => r0 + lab r0 rho dr * (i : ℚ),
         (resamplePoly h q (((List.range n).map fun i : Nat => r0 + eff r0 rho dr / q * (i : ℚ)).map (interp1d rho (iq.map (·.1))))).zip
         (resamplePoly h q (((List.range n).map fun i : Nat => r0 + eff r0 rho dr / q * (i : ℚ)).map (interp1d rho (iq.map (·.2))))))) := by
  obtain ⟨N, hN⟩ := exists_nat_ge ((rho.getD 0 0 - pyRound (rho.getD 0 0)) / dr)
  rw [div_le_iff₀ hd] at hN
  obtain ⟨k, k1, k2, k3⟩ := climb_spec N (pyRound (rho.getD 0 0)) hN
  have hr0 : (pyRound (rho.getD 0 0) : ℚ) + k * dr ≤ rho.getD 0 0 + max dr (1 / 2) := by
    rcases k3 with k3 | rfl
    · have := le_max_left dr (1 / 2)
      linarith
    · have := (abs_le.mp (pyRound_err (rho.getD 0 0))).2
      have := le_max_right dr (1 / 2)
      push_cast
      linarith
  obtain ⟨q, n, p0, p1, p2, p3, p4, p5, p6⟩ := preAt_spec (dr := dr) h2 (lt_of_le_of_lt hr0 h4)
  refine ⟨N, k, q, n, _, rfl, k2, hr0, p0, p1, p2, p3, p4, p5, ?_⟩
  intro fuel hf
  have hup : ¬ rho.getD 1 0 - rho.getD 0 0 < 0 := by
    have := h1.lt (show 0 < 1 by omega) (by omega)
    linarith
  have hpre : ∀ vec : List ℚ, rho.length = vec.length → preResample fuel rho vec (1 / dr) =
      some (preResampleAt (pyRound (rho.getD 0 0) + k * dr) rho vec (1 / dr)) := by
    intro vec _
    unfold preResample
    rw [one_div_one_div, k1 fuel hf]
    rfl
  unfold resampleIQ
  rw [if_neg (by omega)]
  simp only [hup, if_false, if_neg hd.ne']
  rw [hpre _ (by simp [h3]), hpre _ (by simp [h3]), p6 _ (by simp [h3]), p6 _ (by simp [h3])]
  generalize hr : (pyRound (rho.getD 0 0) : ℚ) + k * dr = r0
  obtain ⟨tl, htl⟩ : ∃ tl, ((List.range n).map fun i : Nat => r0 + eff r0 rho dr / q * (i : ℚ)) = r0 :: tl :=
    ⟨_, by rw [map_range_ne p2]; simp only [Nat.cast_zero, mul_zero, add_zero]; rfl⟩
  have hl : (r0 :: tl).length = n := by rw [← htl]; simp
  simp only [htl, bind, Except.bind, pure, Except.pure, resamplePoly_length h p1, List.length_map, hl]

theorem resample_down {rho : List ℚ} {iq : List (ℚ × ℚ)} {dr : ℚ} (h : Nat → Int → ℚ) (h1 : Falling rho) (h2 : 2 ≤ rho.length)
    (fuel : Nat) : resampleIQ h fuel rho iq dr = resampleIQ h fuel rho.reverse iq.reverse dr := by
  have hd : rho.getD 1 0 - rho.getD 0 0 < 0 := by
    rw [getD_at (by omega), getD_at (by omega)]
    have := List.pairwise_iff_getElem.mp h1 0 1 (by omega) (by omega) (by omega)
    linarith
  have hu : ¬ rho.reverse.getD 1 0 - rho.reverse.getD 0 0 < 0 := by
    have hr : Growing rho.reverse := by
      unfold Growing
      rw [List.pairwise_reverse]
      exact h1
    have := hr.lt (show 0 < 1 by omega) (by simp; omega)
    linarith
  conv_lhs => unfold resampleIQ
  conv_rhs => unfold resampleIQ
  simp only [hd, hu, if_true, if_false, List.length_reverse]

theorem sampled_of {r0 step lo hi : ℚ} {m : Nat} (hm : 1 ≤ m) (hs : 0 < step) (h1 : lo ≤ r0) (h2 : r0 ≤ lo + max step (1 / 2))
    (h3 : r0 + step * (m - 1 : ℚ) < hi) (h4 : hi ≤ r0 + step * (m - 1 : ℚ) + 3 / 2 * step) :
    Sampled lo hi step ((List.range m).map fun i : Nat => r0 + step * (i : ℚ)) := by
  obtain ⟨m, rfl⟩ : ∃ n, m = n + 1 := ⟨m - 1, by omega⟩
  push_cast at h3 h4
  refine ⟨by simp, ?_, ?_, ?_, ?_⟩
  · intro i hi
    rw [getD_at hi, getD_at (by omega)]
    simp only [List.getElem_map, List.getElem_range]
    push_cast
    ring
  · intro r hr
    obtain ⟨i, hi, rfl⟩ := List.mem_map.mp hr
    have : i ≤ m := by simpa [Nat.lt_succ_iff] using hi
    have : (i : ℚ) ≤ m := by exact_mod_cast this
    have h5 : step * (i : ℚ) ≤ step * m := mul_le_mul_of_nonneg_left this hs.le
    have h6 : 0 ≤ step * (i : ℚ) := mul_nonneg hs.le (Nat.cast_nonneg i)
    constructor <;> linarith
  · intro r hr
    rw [map_range_ne (by omega)] at hr
    simp only [List.head?_cons, Option.some.injEq] at hr
    subst hr
    push_cast
    linarith
  · intro r hr
    rw [List.range_succ, List.map_append] at hr
    simp only [List.map_cons, List.map_nil, List.getLast?_append, List.getLast?_singleton, Option.some_or,
      Option.some.injEq] at hr
    subst hr
    linarith

theorem ceil_bounds {n q : Nat} (hq : 1 ≤ q) (hn : 1 ≤ n) : 1 ≤ (n + q - 1) / q ∧
    (q : ℚ) * (((n + q - 1) / q : Nat) - 1 : ℚ) ≤ n - 1 ∧ (n : ℚ) ≤ q * (((n + q - 1) / q : Nat) : ℚ) := by
  have h1 : 1 ≤ (n + q - 1) / q := by
    rw [Nat.le_div_iff_mul_le (by omega)]
    omega
  have h2 := Nat.div_mul_le_self (n + q - 1) q
  have h3 := Nat.lt_div_mul_add (a := n + q - 1) (b := q) (by omega)
  generalize (n + q - 1) / q = m at h1 h2 h3
  refine ⟨h1, ?_, ?_⟩
  · have : m * q + 1 ≤ n + q := by omega
    have : (m * q + 1 : ℚ) ≤ n + q := by exact_mod_cast this
    linarith
  · have : n ≤ m * q := by omega
    have : (n : ℚ) ≤ m * q := by exact_mod_cast this
    linarith

/-- For data in order of increasing radius that are neither shorter than the step nor than half a kilometre the result begins
within the data and goes on to their end in equal steps.  A step of whole thousandths is used as it is requested if the data allow
it, otherwise the least multiple of 1/40 km that they allow. -/
theorem C90_radii_partial {rho : List ℚ} {iq : List (ℚ × ℚ)} {dr : ℚ} (h : Nat → Int → ℚ) (h1 : Growing rho)
    (h2 : 3 ≤ rho.length) (h3 : iq.length = rho.length) (hd : 0 < dr) (hk : ∃ k : ℤ, dr = k / 1000)
    (h4 : rho.getD 0 0 + max dr (1 / 2) < rho.getD (rho.length - 1) 0) :
    ∃ (f0 : Nat) (radii : List ℚ) (sig : List (ℚ × ℚ)) (step : ℚ),
      (∀ fuel, f0 ≤ fuel → resampleIQ h fuel rho iq dr = some (.ok (radii, sig))) ∧ sig.length = radii.length ∧
      Sampled (rho.getD 0 0) (rho.getD (rho.length - 1) 0) step radii ∧
      (rho.getD (rho.length - 1) 0 - rho.getD 0 0 ≤ dr * (rho.length - 1 : ℚ) → step = dr) ∧
      (step ≠ dr → LeastStep ((rho.getD (rho.length - 1) 0 - radii.getD 0 0) / (rho.length - 1 : ℚ)) step) := by
  obtain ⟨f0, k, q, n, r0, e1, e2, e3, -, e4, e5, e6, e7, e8, e9⟩ := resample_up h h1 h2 h3 hd h4
  obtain ⟨c1, c2, c3⟩ := ceil_bounds e4 e5
  have hlab : lab r0 rho dr = eff r0 rho dr := by
    unfold lab eff
    split
    · rfl
    · obtain ⟨j, rfl⟩ := hk
      rw [div_mul_cancel₀ _ (by norm_num), pyRound_int]
  have hlen : (3 : ℚ) ≤ rho.length := by exact_mod_cast h2
  have hq : (0 : ℚ) < q := by exact_mod_cast e4
  have hge : dr ≤ eff r0 rho dr := by
    unfold eff
    split
    · exact le_of_lt (lt_of_lt_of_le (by assumption) coarse_least.2.1)
    · exact le_refl _
  refine ⟨f0, _, _, eff r0 rho dr, e9, ?_, ?_, ?_, ?_⟩
  · simp [resamplePoly_length h e4]
  · rw [hlab]
    have hs : 0 < eff r0 rho dr / q := div_pos e6 hq
    have hE : eff r0 rho dr = q * (eff r0 rho dr / q) := by field_simp
    refine sampled_of c1 e6 e2 (e3.trans ?_) ?_ ?_
    · have := max_le_max_right (1 / 2) hge
      linarith
    · generalize (((n + q - 1) / q : Nat) : ℚ) = m at c2 c3
      have := mul_le_mul_of_nonneg_left c2 hs.le
      have : eff r0 rho dr * (m - 1) = eff r0 rho dr / q * (q * (m - 1)) := by field_simp
      linarith
    · generalize (((n + q - 1) / q : Nat) : ℚ) = m at c2 c3
      have := mul_le_mul_of_nonneg_left c3 hs.le
      have : eff r0 rho dr * m = eff r0 rho dr / q * (q * m) := by field_simp
      have : 1 * (eff r0 rho dr / q) ≤ q * (eff r0 rho dr / q) := mul_le_mul_of_nonneg_right (by exact_mod_cast e4) hs.le
      linarith
  · intro hm
    unfold eff
    rw [if_neg]
    unfold mean
    rw [not_lt, div_le_iff₀ (by linarith)]
    linarith
  · intro hne
    have hc : dr < mean r0 rho := by
      by_contra hc
      exact hne (by unfold eff; rw [if_neg hc])
    have h0 : ((List.range ((n + q - 1) / q)).map fun i : Nat => r0 + lab r0 rho dr * (i : ℚ)).getD 0 0 = r0 := by
      rw [map_range_ne c1]
      simp
    rw [h0]
    unfold eff
    rw [if_pos hc]
    exact coarse_least

/-- Data 0.1 km apart, resampled to 0.25 km. -/
example : let rho : List ℚ := (List.range 30).map fun i : Nat => 74000 + (i : ℚ) / 10
    Growing rho ∧ 3 ≤ rho.length ∧ (∃ k : ℤ, (0.25 : ℚ) = k / 1000) ∧
    rho.getD 0 0 + max 0.25 (1 / 2) < rho.getD (rho.length - 1) 0 ∧
    rho.getD (rho.length - 1) 0 - rho.getD 0 0 ≤ 0.25 * (rho.length - 1 : ℚ) :=
  ⟨by unfold Growing; decide +kernel, by decide +kernel, ⟨250, by norm_num⟩, by decide +kernel, by decide +kernel⟩

/-- The order of the data does not matter. -/
theorem C90_direction {rho : List ℚ} {iq : List (ℚ × ℚ)} {dr : ℚ} (h : Nat → Int → ℚ) (h1 : Falling rho) (h2 : 2 ≤ rho.length)
    (fuel : Nat) : resampleIQ h fuel rho iq dr = resampleIQ h fuel rho.reverse iq.reverse dr := resample_down h h1 h2 fuel

example : Falling [75000, 74000.5, 74000] ∧ 2 ≤ [75000, 74000.5, (74000 : ℚ)].length := ⟨by unfold Falling; decide +kernel, by decide⟩

/-- Radii 1/16 km apart, from 100 km on. -/
def sixteenths : List ℚ := (List.range 17).map fun i : Nat => 100 + (i : ℚ) / 16

/-- A step that is not a whole number of thousandths is rounded: the radii are not those requested. -/
theorem C90_rounded_false : ∃ (rho : List ℚ) (iq : List (ℚ × ℚ)) (dr : ℚ) (fuel : Nat), Growing rho ∧ 3 ≤ rho.length ∧
    iq.length = rho.length ∧ 0 < dr ∧ rho.getD 0 0 + max dr (1 / 2) < rho.getD (rho.length - 1) 0 ∧
    rho.getD (rho.length - 1) 0 - rho.getD 0 0 ≤ dr * (rho.length - 1 : ℚ) ∧
    ∀ h, ∃ sig, resampleIQ h fuel rho iq dr =
      some (.ok ((List.range 16).map fun i : Nat => 100 + 31 / 500 * (i : ℚ), sig)) ∧ (31 / 500 : ℚ) ≠ dr := by
  refine ⟨sixteenths, sixteenths.map fun r => (r, 0), 1 / 16, 10, ?_, by decide +kernel, by decide +kernel, by decide +kernel,
    by decide +kernel, by decide +kernel, fun h => ⟨((List.range 16).map fun i : Nat => (100 + (i : ℚ) / 16, 0)), ?_, by norm_num⟩⟩
  · unfold Growing
    decide +kernel
  · have hp : preResample 10 sixteenths (sixteenths.map fun r => r) (1 / (1 / 16)) =
        some (.ok ⟨(List.range 16).map fun i : Nat => 100 + (i : ℚ) / 16, (List.range 16).map fun i : Nat => 100 + (i : ℚ) / 16,
          1, 31 / 500⟩) := by decide +kernel
    have hp0 : preResample 10 sixteenths (sixteenths.map fun _ => 0) (1 / (1 / 16)) =
        some (.ok ⟨(List.range 16).map fun i : Nat => 100 + (i : ℚ) / 16, (List.range 16).map fun _ : Nat => 0,
          1, 31 / 500⟩) := by decide +kernel
    unfold resampleIQ
    rw [if_neg (by decide +kernel)]
    have hu : ¬ sixteenths.getD 1 0 - sixteenths.getD 0 0 < 0 := by decide +kernel
    simp only [hu, if_false, List.map_map, Function.comp_def]
    rw [if_neg (by norm_num), hp, hp0]
    simp only [bind, Except.bind, pure, Except.pure, resamplePoly, if_true]
    decide +kernel

/-- A profile of less than half a kilometre gives radii outside of the data. -/
theorem C90_short_false : ∃ (rho : List ℚ) (iq : List (ℚ × ℚ)) (dr : ℚ) (fuel : Nat), Growing rho ∧ 3 ≤ rho.length ∧
    iq.length = rho.length ∧ 0 < dr ∧ rho.getD 0 0 + dr ≤ rho.getD (rho.length - 1) 0 ∧
    ∀ h, ∃ radii sig, resampleIQ h fuel rho iq dr = some (.ok (radii, sig)) ∧ ∃ r ∈ radii, ∀ x ∈ rho, x < r := by
  refine ⟨[0.6, 0.7, 0.8], [(1, 0), (1, 0), (1, 0)], 1 / 10, 10, by unfold Growing; decide +kernel, by decide +kernel,
    by decide +kernel, by decide +kernel, by decide +kernel, fun h => ⟨[1, 1.1], [(1, 0), (1, 0)], ?_, 1, by simp, by decide +kernel⟩⟩
  have hp : preResample 10 [0.6, 0.7, 0.8] [1, 1, 1] (1 / (1 / 10)) = some (.ok ⟨[1, 1.1], [1, 1], 1, 1 / 10⟩) := by decide +kernel
  have hp0 : preResample 10 [0.6, 0.7, 0.8] [0, 0, 0] (1 / (1 / 10)) = some (.ok ⟨[1, 1.1], [0, 0], 1, 1 / 10⟩) := by decide +kernel
  unfold resampleIQ
  rw [if_neg (by decide)]
  have hu : ¬ ([0.6, 0.7, 0.8] : List ℚ).getD 1 0 - ([0.6, 0.7, 0.8] : List ℚ).getD 0 0 < 0 := by decide +kernel
  simp only [hu, if_false, List.map_cons, List.map_nil]
  rw [if_neg (by norm_num), hp, hp0]
  simp only [bind, Except.bind, pure, Except.pure, resamplePoly, if_true]
  decide +kernel

/-- The radii need not be multiples of the step. -/
theorem C90_multiples_false : ∃ (rho : List ℚ) (iq : List (ℚ × ℚ)) (dr : ℚ) (fuel : Nat), Growing rho ∧ 3 ≤ rho.length ∧
    iq.length = rho.length ∧ (∃ k : ℤ, dr = k / 1000) ∧ 0 < dr ∧
    ∀ h, ∃ radii sig, resampleIQ h fuel rho iq dr = some (.ok (radii, sig)) ∧ ∃ r ∈ radii, ∀ k : ℤ, r ≠ k * dr := by
  refine ⟨[100, 100.3, 100.6], [(1, 0), (1, 0), (1, 0)], 3 / 10, 10, by unfold Growing; decide +kernel, by decide +kernel,
    by decide +kernel, ⟨300, by norm_num⟩, by decide +kernel, fun h => ⟨[100, 100.3], [(1, 0), (1, 0)], ?_, 100, by simp, ?_⟩⟩
  · have hp : preResample 10 [100, 100.3, 100.6] [1, 1, 1] (1 / (3 / 10)) =
        some (.ok ⟨[100, 100.3], [1, 1], 1, 3 / 10⟩) := by decide +kernel
    have hp0 : preResample 10 [100, 100.3, 100.6] [0, 0, 0] (1 / (3 / 10)) =
        some (.ok ⟨[100, 100.3], [0, 0], 1, 3 / 10⟩) := by decide +kernel
    unfold resampleIQ
    rw [if_neg (by decide)]
    have hu : ¬ ([100, 100.3, 100.6] : List ℚ).getD 1 0 - ([100, 100.3, 100.6] : List ℚ).getD 0 0 < 0 := by decide +kernel
    simp only [hu, if_false, List.map_cons, List.map_nil]
    rw [if_neg (by norm_num), hp, hp0]
    simp only [bind, Except.bind, pure, Except.pure, resamplePoly, if_true]
    decide +kernel
  · intro k hk
    have : (1000 : ℚ) = 3 * k := by linarith
    have : (1000 : ℤ) = 3 * k := by exact_mod_cast this
    omega

end Verif.Cal
