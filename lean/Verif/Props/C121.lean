import Verif.Model.RingProfile
import Verif.Model.RingFit
import Mathlib.Analysis.SpecialFunctions.Gaussian.GaussianIntegral
import Mathlib.Analysis.SpecialFunctions.ImproperIntegrals
import Mathlib.Analysis.SpecialFunctions.Exp

/-!
# C121 The profiles of a ring feature: centre, shape and amplitude
-/
namespace Verif.Fit
open Filter Topology MeasureTheory

/-- **C121**, logistic edge: half way at `x0`, symmetric about that point, between `c` and `c + L`, rising for positive `k`
and approaching both levels. -/
theorem C121_logistic (x0 L k c : ℝ) (hL : 0 < L) (hk : 0 < k) :
    logistic x0 x0 L k c = c + L / 2 ∧
    (∀ d, logistic (x0 + d) x0 L k c + logistic (x0 - d) x0 L k c = 2 * c + L) ∧
    (∀ x, c < logistic x x0 L k c ∧ logistic x x0 L k c < c + L) ∧
    StrictMono (fun x => logistic x x0 L k c) ∧
    Tendsto (fun x => logistic x x0 L k c) atTop (𝓝 (c + L)) ∧
    Tendsto (fun x => logistic x x0 L k c) atBot (𝓝 c) := by
  have hp : ∀ x : ℝ, 0 < Real.exp x := Real.exp_pos
  refine ⟨?_, fun d => ?_, fun x => ⟨?_, ?_⟩, fun x y hxy => ?_, ?_, ?_⟩
  · unfold logistic
    rw [sub_self, mul_zero, Real.exp_zero]; ring
  · unfold logistic
    rw [show -k * (x0 + d - x0) = -(k * d) by ring, show -k * (x0 - d - x0) = k * d by ring, Real.exp_neg]
    have := hp (k * d)
    field_simp
    ring
  · unfold logistic
    have := hp (-k * (x - x0))
    have : 0 < L / (1 + Real.exp (-k * (x - x0))) := by positivity
    linarith
  · unfold logistic
    have h1 := hp (-k * (x - x0))
    have : L / (1 + Real.exp (-k * (x - x0))) < L := by
      rw [div_lt_iff₀ (by linarith)]
      nlinarith
    linarith
  · have h1 : Real.exp (-k * (y - x0)) < Real.exp (-k * (x - x0)) := by
      apply Real.exp_lt_exp.2
      nlinarith
    have h2 := hp (-k * (y - x0))
    simp only [logistic]
    have : L / (1 + Real.exp (-k * (x - x0))) < L / (1 + Real.exp (-k * (y - x0))) :=
      div_lt_div_of_pos_left hL (by linarith) (by linarith)
    linarith
  · have h1 : Tendsto (fun x => -k * (x - x0)) atTop atBot :=
      Tendsto.const_mul_atTop_of_neg (by linarith) (tendsto_atTop_add_const_right _ (-x0) tendsto_id)
    have h2 := Real.tendsto_exp_atBot.comp h1
    have h3 : Tendsto (fun x => L / (1 + Real.exp (-k * (x - x0))) + c) atTop (𝓝 (L / (1 + 0) + c)) :=
      ((tendsto_const_nhds (x := L)).div (tendsto_const_nhds.add h2) (by norm_num)).add_const c
    rw [show c + L = L / (1 + 0) + c by ring]
    exact h3
  · have h1 : Tendsto (fun x => -k * (x - x0)) atBot atTop :=
      Tendsto.const_mul_atBot_of_neg (by linarith) (tendsto_atBot_add_const_right _ (-x0) tendsto_id)
    have h2 := Real.tendsto_exp_atTop.comp h1
    have h3 : Tendsto (fun x => L / (1 + Real.exp (-k * (x - x0))) + c) atBot (𝓝 (0 + c)) :=
      ((tendsto_const_nhds (x := L)).div_atTop (tendsto_atTop_add_const_left _ 1 h2)).add_const c
    rw [zero_add] at h3
    exact h3

example : logistic 87500 87500 2 3 (1 / 10) = 1 / 10 + 2 / 2 := (C121_logistic 87500 2 3 (1 / 10) (by norm_num) (by norm_num)).1

/-- **C121**, Gaussian: for every positive `k` it is defined everywhere, symmetric, greatest at `x0`, and the area above `c`
is `L`. -/
theorem C121_gauss (x0 L k c : ℝ) (hL : 0 < L) (hk : 0 < k) :
    ∃ g : ℝ → ℝ, (∀ x, gauss x x0 L k c = some (g x)) ∧ (∀ d, g (x0 + d) = g (x0 - d)) ∧ (∀ x, x ≠ x0 → g x < g x0) ∧
      (∀ x, c < g x) ∧ ∫ x, (g x - c) = L := by
  have hpi := Real.pi_pos
  have hkp : ¬ k / Real.pi < 0 := not_lt.2 (by positivity)
  have hs : 0 < Real.sqrt (k / Real.pi) := Real.sqrt_pos.2 (by positivity)
  refine ⟨fun x => L * Real.sqrt (k / Real.pi) * Real.exp (-k * (x - x0) ^ 2) + c, fun x => ?_, fun d => ?_, fun x hx => ?_,
    fun x => ?_, ?_⟩
  · simp only [gauss, npSqrt, if_neg hkp, Option.map_some]
  · simp only
    rw [show (x0 + d - x0) ^ 2 = (x0 - d - x0) ^ 2 by ring]
  · simp only
    have : Real.exp (-k * (x - x0) ^ 2) < Real.exp (-k * (x0 - x0) ^ 2) := by
      apply Real.exp_lt_exp.2
      have : 0 < (x - x0) ^ 2 := by
        have := sub_ne_zero.2 hx
        positivity
      nlinarith
    have := mul_lt_mul_of_pos_left this (mul_pos hL hs)
    linarith
  · simp only
    have := mul_pos (mul_pos hL hs) (Real.exp_pos (-k * (x - x0) ^ 2))
    linarith
  · simp only [add_sub_cancel_right]
    rw [integral_const_mul, integral_sub_right_eq_self (fun x => Real.exp (-k * x ^ 2)) x0, integral_gaussian, mul_assoc,
      ← Real.sqrt_mul (by positivity), show k / Real.pi * (Real.pi / k) = 1 by field_simp, Real.sqrt_one, mul_one]

example : ∃ g : ℝ → ℝ, (∀ x, gauss x 87500 2 3 0 = some (g x)) ∧ ∫ x, (g x - 0) = 2 := by
  obtain ⟨g, h1, -, -, -, h2⟩ := C121_gauss 87500 2 3 0 (by norm_num) (by norm_num)
  exact ⟨g, h1, h2⟩

/-- **C121**, Lorentzian: for every positive `k` it is defined everywhere, symmetric and greatest at `x0`, but the area above
`c` is `L` times the square root of π. -/
theorem C121_lorentz_partial (x0 L k c : ℝ) (hL : 0 < L) (hk : 0 < k) :
    ∃ g : ℝ → ℝ, (∀ x, lorentz x x0 L k c = some (g x)) ∧ (∀ d, g (x0 + d) = g (x0 - d)) ∧ (∀ x, x ≠ x0 → g x < g x0) ∧
      (∀ x, c < g x) ∧ ∫ x, (g x - c) = L * Real.sqrt Real.pi := by
  have hpi := Real.pi_pos
  have hs : 0 < Real.sqrt k := Real.sqrt_pos.2 hk
  have hq : 0 < Real.sqrt (Real.pi / k) := Real.sqrt_pos.2 (by positivity)
  have hden : ∀ x, 0 < Real.pi * (x - x0) ^ 2 + k := fun x => by positivity
  refine ⟨fun x => L * Real.sqrt k / (Real.pi * (x - x0) ^ 2 + k) + c, fun x => ?_, fun d => ?_, fun x hx => ?_,
    fun x => ?_, ?_⟩
  · simp only [lorentz, npSqrt, if_neg (not_lt.2 hk.le), Option.bind_some, npDiv, if_neg (hden x).ne', Option.map_some]
  · simp only
    rw [show (x0 + d - x0) ^ 2 = (x0 - d - x0) ^ 2 by ring]
  · simp only
    have : 0 < (x - x0) ^ 2 := by
      have := sub_ne_zero.2 hx
      positivity
    have : L * Real.sqrt k / (Real.pi * (x - x0) ^ 2 + k) < L * Real.sqrt k / (Real.pi * (x0 - x0) ^ 2 + k) :=
      div_lt_div_of_pos_left (mul_pos hL hs) (hden x0) (by nlinarith)
    linarith
  · simp only
    have := div_pos (mul_pos hL hs) (hden x)
    linarith
  · simp only [add_sub_cancel_right]
    have e : ∀ x, L * Real.sqrt k / (Real.pi * (x - x0) ^ 2 + k) =
        L * Real.sqrt k / k * (fun u => (fun v => (1 + v ^ 2)⁻¹) (Real.sqrt (Real.pi / k) * u)) (x - x0) := by
      intro x
      simp only
      rw [mul_pow, Real.sq_sqrt (by positivity)]
      have := (hden x).ne'
      field_simp
      ring
    simp only [e]
    rw [integral_const_mul,
      integral_sub_right_eq_self (fun u => (fun v : ℝ => (1 + v ^ 2)⁻¹) (Real.sqrt (Real.pi / k) * u)) x0,
      Measure.integral_comp_mul_left (fun v : ℝ => (1 + v ^ 2)⁻¹), integral_univ_inv_one_add_sq, abs_of_pos (by positivity), smul_eq_mul,
      Real.sqrt_div hpi.le, inv_div]
    have h1 : Real.sqrt k * Real.sqrt k = k := Real.mul_self_sqrt hk.le
    have h2 : Real.sqrt Real.pi * Real.sqrt Real.pi = Real.pi := Real.mul_self_sqrt hpi.le
    have h3 : Real.sqrt Real.pi ≠ 0 := (Real.sqrt_pos.2 hpi).ne'
    have h4 : L * Real.sqrt k / k * (Real.sqrt k / Real.sqrt Real.pi * Real.pi) =
        L * (Real.sqrt k * Real.sqrt k) / k * (Real.pi / Real.sqrt Real.pi) := by ring
    rw [h4, h1, mul_div_assoc, div_self hk.ne', mul_one]
    congr 1
    rw [div_eq_iff h3, h2]

/-- The negation of **C121** for the Lorentzian: the area above `c` is never `L`. -/
theorem C121_lorentz_false (x0 L k c : ℝ) (hL : 0 < L) (hk : 0 < k) (g : ℝ → ℝ) (hg : ∀ x, lorentz x x0 L k c = some (g x)) :
    ∫ x, (g x - c) ≠ L := by
  obtain ⟨f, h1, -, -, -, h2⟩ := C121_lorentz_partial x0 L k c hL hk
  have : g = f := by
    funext x
    exact Option.some.inj ((hg x).symm.trans (h1 x))
  rw [this, h2]
  have hp : 1 < Real.sqrt Real.pi := Real.lt_sqrt_of_sq_lt (by linarith [Real.two_le_pi])
  nlinarith

example : ∃ g : ℝ → ℝ, (∀ x, lorentz x 87500 2 3 0 = some (g x)) ∧ ∫ x, (g x - 0) ≠ 2 := by
  obtain ⟨g, h1, -⟩ := C121_lorentz_partial 87500 2 3 0 (by norm_num) (by norm_num)
  exact ⟨g, h1, C121_lorentz_false 87500 2 3 0 (by norm_num) (by norm_num) g h1⟩

/-- The negation of **C121** within the bounds of the fit: `k` is not bounded, and for every negative `k` both profiles are
NaN at every radius. -/
theorem C121_bounds_false (x x0 L k c : ℝ) (hk : k < 0) : gauss x x0 L k c = none ∧ lorentz x x0 L k c = none ∧
    (∀ (guess : ℚ) (l : ℚ × ℚ) (s : FitStart), (fitStart "gauss".toList guess l = some s ∨ fitStart "lorentz".toList guess l = some s) →
      s.lo.getD 2 (some 0) = none) := by
  refine ⟨?_, ?_, ?_⟩
  · unfold gauss npSqrt
    rw [if_pos (div_neg_of_neg_of_pos hk Real.pi_pos)]; rfl
  · unfold lorentz npSqrt
    rw [if_pos hk]; rfl
  · intro guess l s hs
    have e1 : fitStart "gauss".toList guess l =
        some ⟨[guess, 1, 1, 0], [some l.1, some 0, none, some (-1 / 10)], [some l.2, none, none, some (1 / 10)]⟩ := rfl
    have e2 : fitStart "lorentz".toList guess l =
        some ⟨[guess, 1, 1, 0], [some l.1, some 0, none, some (-1 / 10)], [some l.2, none, none, some (1 / 10)]⟩ := rfl
    rw [e1, e2, or_self] at hs
    cases hs
    rfl

/-- The negation of **C121** for the amplitude that decides on detection (flag 2): an edge whose step is 1/10 is "not
detected" with any residuals at all between 0 and 1 if the free level is 1/10; and a Gaussian of any height, however small,
is "detected" with residuals 1/2. -/
theorem C121_amplitude_false :
    (∃ (L k c : ℚ), (-1 / 10 ≤ c ∧ c ≤ 1 / 10) ∧ (∀ x0 : ℝ, Tendsto (fun x => logistic x x0 L k c) atTop (𝓝 (c + 1 / 10)) ∧
        Tendsto (fun x => logistic x x0 L k c) atBot (𝓝 (c : ℝ))) ∧
      ∀ (x0 err rms : ℚ), 0 < rms → rms < 1 → fitFlag ⟨[x0, L, k, c], err, rms⟩ = 2) ∧
    (∀ h : ℝ, 0 < h → ∃ (L k : ℚ), (∀ x0 x : ℝ, ∃ y, gauss x x0 L k 0 = some y ∧ 0 < y ∧ y < h) ∧
      ∀ (x0 : ℚ), fitFlag ⟨[x0, L, k, 0], 0, 1 / 2⟩ = 0) := by
  refine ⟨⟨1 / 10, 1, 1 / 10, ⟨by norm_num, by norm_num⟩, fun x0 => ?_, fun x0 err rms h0 h1 => ?_⟩, fun h hh => ?_⟩
  · have := C121_logistic x0 ((1 / 10 : ℚ) : ℝ) ((1 : ℚ) : ℝ) ((1 / 10 : ℚ) : ℝ) (by norm_num) (by norm_num)
    refine ⟨?_, this.2.2.2.2.2⟩
    have h5 := this.2.2.2.2.1
    convert h5 using 2
    push_cast
    ring
  · unfold fitFlag
    rw [if_pos]
    simp [h0, h1]
  · obtain ⟨k, hk0, hk⟩ := exists_rat_btwn (show (0 : ℝ) < h ^ 2 by positivity)
    have hk0' : (0 : ℝ) < k := hk0
    refine ⟨1, k, fun x0 x => ?_, fun x0 => ?_⟩
    · obtain ⟨g, h1, -, h3, h4, -⟩ := C121_gauss x0 ((1 : ℚ) : ℝ) k 0 (by norm_num) hk0'
      refine ⟨g x, h1 x, h4 x, ?_⟩
      have hx : g x ≤ g x0 := by
        by_cases e : x = x0
        · rw [e]
        · exact (h3 x e).le
      refine lt_of_le_of_lt hx ?_
      have h5 := h1 x0
      have hpi := Real.pi_pos
      have hkp : ¬ (k : ℝ) / Real.pi < 0 := not_lt.2 (by positivity)
      simp only [gauss, npSqrt, if_neg hkp, Option.map_some, Option.some.injEq] at h5
      rw [← h5, sub_self]
      have : Real.sqrt (k / Real.pi) < h := by
        rw [Real.sqrt_lt' hh]
        refine lt_of_le_of_lt ?_ hk
        rw [div_le_iff₀ hpi]
        nlinarith [Real.two_le_pi]
      simpa using this
    · unfold fitFlag
      norm_num

end Verif.Fit
