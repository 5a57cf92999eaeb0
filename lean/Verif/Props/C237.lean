import Verif.Model.PdsThr
import Mathlib.Analysis.SpecialFunctions.Log.Base
import Mathlib.Tactic.Linarith
import Mathlib.Tactic.Ring
import Mathlib.Tactic.FieldSimp
import Mathlib.Tactic.NormNum
import Mathlib.Tactic.Positivity

/-!
# The threshold optical depth from files of the archive (C237, C238)
-/
namespace Verif.PdsThr
open Real

theorem foldl_max_scale (a : ℝ) (ha : 0 ≤ a) (t : List ℝ) (x : ℝ) : (t.map (a * ·)).foldl max (a * x) = a * t.foldl max x := by
  induction t generalizing x with
  | nil => rfl
  | cons b t ih => rw [List.map_cons, List.foldl_cons, List.foldl_cons, ← mul_max_of_nonneg _ _ ha, ih]

/-- The unit of the powers does not matter. -/
theorem C237_scale (bdeg pwr : List ℝ) (dBHz res fac p rhodot a : ℝ) (ha : 0 < a) :
    thr bdeg (pwr.map (a * ·)) dBHz res fac (a * p) rhodot = thr bdeg pwr dBHz res fac p rhodot := by
  have e : peak (pwr.map (a * ·)) = a * peak pwr := by
    cases pwr with
    | nil => simp [peak]
    | cons x t => exact foldl_max_scale a ha.le t x
  rw [thr, thr, snr, snr, e, mul_div_mul_left _ _ ha.ne']

/-- The largest of some numbers. -/
def Spec.Largest (l : List ℝ) (p : ℝ) : Prop := p ∈ l ∧ ∀ x ∈ l, x ≤ p

theorem foldl_max_le (t : List ℝ) (x p : ℝ) (hx : x ≤ p) (ht : ∀ y ∈ t, y ≤ p) : t.foldl max x ≤ p := by
  induction t generalizing x with
  | nil => exact hx
  | cons b t ih => exact ih _ (max_le hx (ht b List.mem_cons_self)) fun y hy => ht y (List.mem_cons_of_mem _ hy)

theorem le_foldl_max (t : List ℝ) (x : ℝ) : x ≤ t.foldl max x ∧ ∀ v ∈ t, v ≤ t.foldl max x := by
  induction t generalizing x with
  | nil => simp
  | cons a t ih =>
    obtain ⟨h1, h2⟩ := ih (max x a)
    rw [List.foldl_cons]
    refine ⟨le_trans (le_max_left _ _) h1, fun v hv => ?_⟩
    rcases List.mem_cons.mp hv with rfl | hv
    · exact le_trans (le_max_right _ _) h1
    · exact h2 v hv

theorem peak_eq {l : List ℝ} {p : ℝ} (h : Spec.Largest l p) : peak l = p := by
  cases l with
  | nil => exact absurd h.1 (by simp)
  | cons x t =>
    apply le_antisymm
    · exact foldl_max_le t x p (h.2 x List.mem_cons_self) fun y hy => h.2 y (List.mem_cons_of_mem _ hy)
    · rcases List.mem_cons.mp h.1 with hp | hp
      · rw [hp]; exact (le_foldl_max t x).1
      · exact (le_foldl_max t x).2 p hp

/-- At the largest power the ratio is that of the table in decibels, and every other power has a ratio in proportion. -/
theorem C237_ratio (pwr : List ℝ) (dBHz pmax p : ℝ) (h : Spec.Largest pwr pmax) (h0 : 0 < pmax) :
    10 * logb 10 (snr pwr dBHz pmax) = dBHz ∧ snr pwr dBHz p / snr pwr dBHz pmax = p / pmax := by
  have hp : (0 : ℝ) < 10 ^ (dBHz / 10) := Real.rpow_pos_of_pos (by norm_num) _
  have e : snr pwr dBHz pmax = (10 : ℝ) ^ (dBHz / 10) := by rw [snr, peak_eq h, div_self h0.ne', one_mul]
  constructor
  · rw [e, Real.logb_rpow (by norm_num) (by norm_num)]; ring
  · rw [e, snr, peak_eq h, mul_div_assoc, div_self hp.ne', mul_one]

/-- With `m` times coarser resolution, or `m` times the ratio, the threshold is higher by the sine of the elevation times the logarithm of `m`. -/
theorem C237_resolution (bdeg pwr : List ℝ) (dBHz res fac p rhodot m pmax : ℝ) (h : Spec.Largest pwr pmax) (h0 : 0 < pmax) (hp : 0 < p) (hr : 0 < res)
    (hf : 0 < fac) (hv : rhodot ≠ 0) (hm : 0 < m) :
    thr bdeg pwr dBHz (m * res) fac p rhodot = thr bdeg pwr dBHz res fac p rhodot + |sin (bdeg.headD 0 * (π / 180))| * log m ∧
    thr bdeg pwr dBHz res fac (m * p) rhodot = thr bdeg pwr dBHz res fac p rhodot + |sin (bdeg.headD 0 * (π / 180))| * log m := by
  have hs : 0 < snr pwr dBHz p := by
    rw [snr, peak_eq h]
    exact mul_pos (div_pos hp h0) (Real.rpow_pos_of_pos (by norm_num) _)
  have hb : 0 < |rhodot| := abs_pos.mpr hv
  have hx : 0 < 1.571733936879165 * snr pwr dBHz p * (res * fac) / |rhodot| := by positivity
  have e1 : 1.571733936879165 * snr pwr dBHz p * (m * res * fac) / |rhodot| = m * (1.571733936879165 * snr pwr dBHz p * (res * fac) / |rhodot|) := by ring
  have e2 : snr pwr dBHz (m * p) = m * snr pwr dBHz p := by rw [snr, snr]; ring
  have e3 : 1.571733936879165 * (m * snr pwr dBHz p) * (res * fac) / |rhodot| = m * (1.571733936879165 * snr pwr dBHz p * (res * fac) / |rhodot|) := by ring
  constructor
  · rw [thr, thr, e1, Real.log_mul hm.ne' hx.ne', mu]; ring
  · rw [thr, thr, e2, e3, Real.log_mul hm.ne' hx.ne', mu]; ring

/-- Three powers, the second of them the largest. -/
example : Spec.Largest [1, 3, 2] 3 := by
  refine ⟨by simp, ?_⟩
  intro x hx
  fin_cases hx <;> norm_num

/-- The threshold of an optical depth along the line of sight, `t`, as a normal optical depth at the elevation `b` in degrees. -/
noncomputable def Spec.normal (b t : ℝ) : ℝ := |sin (b * π / 180)| * t

/-- The threshold at row `i` is that of the elevation there, with the ratio of `p` to the largest power `pmax`. -/
def Spec.OwnElevation (bdeg pwr : List ℝ) (dBHz res fac p pmax rhodot : ℝ) : Prop :=
  ∀ (i : Nat) (b : ℝ), bdeg[i]? = some b → thr bdeg pwr dBHz res fac p rhodot =
    Spec.normal b (log (1.571733936879165 * (p / pmax * (10 : ℝ) ^ (dBHz / 10)) * (res * fac) / |rhodot|))

/-- It is when the elevation is the same everywhere. -/
theorem C238_elevation_partial (bdeg pwr : List ℝ) (dBHz res fac p pmax rhodot b0 : ℝ) (hp : Spec.Largest pwr pmax) (h : ∀ b ∈ bdeg, b = b0) :
    Spec.OwnElevation bdeg pwr dBHz res fac p pmax rhodot := by
  intro i b hb
  have h1 := h b (List.mem_of_getElem? hb)
  have h2 : bdeg.headD 0 = b0 := by
    cases bdeg with
    | nil => simp at hb
    | cons x t => exact h x List.mem_cons_self
  rw [thr, mu, h2, h1, Spec.normal, mul_div_assoc b0, snr, peak_eq hp]

example : ∀ b ∈ List.replicate 5 (-23.5 : ℝ), b = -23.5 := fun _ hb => List.eq_of_mem_replicate hb

/-- The elevation of the first row is used for all rows. -/
theorem C238_elevation_false : ∃ (bdeg pwr : List ℝ) (dBHz res fac p rhodot : ℝ), 0 < res ∧ 0 < fac ∧ 0 < p ∧ Spec.Largest pwr p ∧ rhodot ≠ 0 ∧
    ¬ Spec.OwnElevation bdeg pwr dBHz res fac p p rhodot := by
  refine ⟨[90, 30], [1], 0, 1, 1, 1, 1, by norm_num, by norm_num, by norm_num, ⟨by simp, by simp⟩, by norm_num, fun H => ?_⟩
  have h := H 1 30 rfl
  have hl : 0 < log (1.571733936879165 * (1 / 1 * (10 : ℝ) ^ ((0 : ℝ) / 10)) * (1 * 1) / |(1 : ℝ)|) := by
    apply Real.log_pos
    norm_num
  have s1 : sin ((90 : ℝ) * (π / 180)) = 1 := by rw [show (90 : ℝ) * (π / 180) = π / 2 by ring, Real.sin_pi_div_two]
  have s2 : sin ((30 : ℝ) * π / 180) = 1 / 2 := by rw [show (30 : ℝ) * π / 180 = π / 6 by ring, Real.sin_pi_div_six]
  rw [thr, mu, List.headD_cons, s1, Spec.normal, s2, snr, peak_eq (p := 1) ⟨by simp, by simp⟩] at h
  linarith

end Verif.PdsThr
