import Verif.Model.TauPoint
import Mathlib.Analysis.SpecialFunctions.Trigonometric.Bounds

/-!
# C124: the values of a diffraction-corrected profile
-/
namespace Verif.Pds

theorem power_norm (T : ℂ) : tauPower T = ‖T‖ ^ 2 := norm_pow T 2

theorem phase_arg (T : ℂ) : tauPhase T = Complex.arg (starRingEnd ℂ T) * (180 / Real.pi) := rfl

/-- Power and phase in the table give back the transmission, with the convention that the library uses for profiles. -/
theorem C124_amplitude (T : ℂ) : amplitude (tauPower T) (tauPhase T) = T := by
  have h1 : (-tauPhase T) * (Real.pi / 180) = -Complex.arg (starRingEnd ℂ T) := by
    rw [phase_arg]
    have := Real.pi_ne_zero
    field_simp
  rw [amplitude, power_norm, Real.sqrt_sq (norm_nonneg T), h1]
  have h2 := Complex.norm_mul_exp_arg_mul_I (starRingEnd ℂ T)
  rw [Complex.norm_conj] at h2
  have h3 := congrArg (starRingEnd ℂ) h2
  rw [Complex.conj_conj, map_mul, Complex.conj_ofReal, ← Complex.exp_conj, map_mul, Complex.conj_ofReal, Complex.conj_I] at h3
  refine Eq.trans ?_ h3
  congr 2
  push_cast
  ring

/-- The phase lies between −180° (excluded) and 180°. -/
theorem C124_phase (T : ℂ) : -180 < tauPhase T ∧ tauPhase T ≤ 180 := by
  have hp := Real.pi_pos
  have h1 := Complex.neg_pi_lt_arg (starRingEnd ℂ T)
  have h2 := Complex.arg_le_pi (starRingEnd ℂ T)
  have e : (180 : ℝ) = Real.pi * (180 / Real.pi) := by field_simp
  have hq : 0 < 180 / Real.pi := by positivity
  rw [phase_arg]
  constructor
  · calc (-180 : ℝ) = -Real.pi * (180 / Real.pi) := by rw [neg_mul, ← e]
      _ < _ := mul_lt_mul_of_pos_right h1 hq
  · calc _ ≤ Real.pi * (180 / Real.pi) := mul_le_mul_of_nonneg_right h2 hq.le
      _ = 180 := e.symm

/-- For a profile before the correction the library takes the complex conjugate of the signal, so the corrected profile in the table has the sign of the
phase that the uncorrected one has. -/
theorem C124_before {IQ : ℂ} (h : IQ ≠ 0) (p : ℝ) : amplitude p (dlpPhase IQ) = (Real.sqrt p / ‖IQ‖ : ℝ) * starRingEnd ℂ IQ ∧
    tauPhase (amplitude 1 (dlpPhase IQ)) = dlpPhase IQ := by
  have h1 : (-dlpPhase IQ) * (Real.pi / 180) = -Complex.arg IQ := by
    show -(Complex.arg IQ * (180 / Real.pi)) * (Real.pi / 180) = _
    have := Real.pi_ne_zero
    field_simp
  have hn : (‖IQ‖ : ℂ) ≠ 0 := by exact_mod_cast norm_ne_zero_iff.mpr h
  have h2 := congrArg (starRingEnd ℂ) (Complex.norm_mul_exp_arg_mul_I IQ)
  rw [map_mul, Complex.conj_ofReal, ← Complex.exp_conj, map_mul, Complex.conj_ofReal, Complex.conj_I] at h2
  have key : ∀ q : ℝ, amplitude q (dlpPhase IQ) = (Real.sqrt q / ‖IQ‖ : ℝ) * starRingEnd ℂ IQ := by
    intro q
    rw [amplitude, h1, ← h2]
    push_cast
    field_simp
  refine ⟨key p, ?_⟩
  rw [key, phase_arg, map_mul, Complex.conj_conj, Complex.conj_ofReal, Complex.arg_real_mul _ (by
    rw [Real.sqrt_one]
    have := norm_pos_iff.mpr h
    positivity)]
  rfl

/-- Numbers of the table: power with seven digits and phase with six decimals give the transmission up to a millionth. -/
theorem C124_rounded {T : ℂ} {p phase : ℝ} (hp : |p - tauPower T| ≤ tauPower T / 2 / 10 ^ 6) (hphase : |phase - tauPhase T| ≤ 1 / 2 / 10 ^ 6) :
    ‖amplitude p phase - T‖ ≤ ‖T‖ / 10 ^ 6 := by
  have hp0 : 0 ≤ p := by
    have h0 : 0 ≤ tauPower T := norm_nonneg _
    rw [abs_le] at hp
    linarith [hp.1]
  have hr : |Real.sqrt p - ‖T‖| ≤ ‖T‖ / 2 / 10 ^ 6 := by
    rw [power_norm] at hp
    have hs := Real.sq_sqrt hp0
    have hs0 := Real.sqrt_nonneg p
    have e : p - ‖T‖ ^ 2 = (Real.sqrt p - ‖T‖) * (Real.sqrt p + ‖T‖) := by linear_combination -hs
    rw [e, abs_mul, abs_of_nonneg (by positivity : 0 ≤ Real.sqrt p + ‖T‖)] at hp
    rcases (norm_nonneg T).eq_or_lt with h | h
    · rw [← h] at hp ⊢
      have hz : |Real.sqrt p - 0| * (Real.sqrt p + 0) ≤ 0 := by simpa using hp
      rw [sub_zero, add_zero, abs_of_nonneg hs0] at hz
      rw [sub_zero, abs_of_nonneg hs0]
      nlinarith
    · refine le_of_mul_le_mul_right ?_ h
      calc |Real.sqrt p - ‖T‖| * ‖T‖ ≤ |Real.sqrt p - ‖T‖| * (Real.sqrt p + ‖T‖) := mul_le_mul_of_nonneg_left (by linarith) (abs_nonneg _)
        _ ≤ _ := hp
        _ = _ := by ring
  set x := (phase - tauPhase T) * (Real.pi / 180) with hx
  have hx' : |x| ≤ 1 / 2 / 10 ^ 6 := by
    rw [hx, abs_mul, abs_of_pos (by positivity : 0 < Real.pi / 180)]
    have := Real.pi_le_four
    calc |phase - tauPhase T| * (Real.pi / 180) ≤ (1 / 2 / 10 ^ 6) * 1 :=
          mul_le_mul hphase (by linarith) (by positivity) (by positivity)
      _ = _ := mul_one _
  have hamp : amplitude p phase = (Real.sqrt p : ℂ) * (Complex.exp (((-tauPhase T) * (Real.pi / 180) : ℝ) * Complex.I) * Complex.exp (Complex.I * (-x : ℝ))) := by
    rw [amplitude, ← Complex.exp_add, hx]
    congr 2
    push_cast
    ring
  have hT := C124_amplitude T
  rw [amplitude, power_norm, Real.sqrt_sq (norm_nonneg T)] at hT
  set u := Complex.exp (((-tauPhase T) * (Real.pi / 180) : ℝ) * Complex.I) with hu
  have nu : ‖u‖ = 1 := Complex.norm_exp_ofReal_mul_I _
  set v := Complex.exp (Complex.I * (-x : ℝ)) with hv
  have nv : ‖v‖ = 1 := by rw [hv, mul_comm]; exact Complex.norm_exp_ofReal_mul_I _
  have dv : ‖v - 1‖ ≤ |x| := by
    have := Real.norm_exp_I_mul_ofReal_sub_one_le (x := -x)
    rwa [norm_neg] at this
  have e : amplitude p phase - T = ((Real.sqrt p - ‖T‖ : ℝ) : ℂ) * (u * v) + (‖T‖ : ℂ) * u * (v - 1) := by
    rw [hamp]
    nth_rewrite 1 [← hT]
    push_cast
    ring
  rw [e]
  refine le_trans (norm_add_le _ _) ?_
  rw [norm_mul, norm_mul, norm_mul, norm_mul, nu, nv, Complex.norm_real, Complex.norm_real, Real.norm_eq_abs, Real.norm_eq_abs, abs_of_nonneg (norm_nonneg T),
    mul_one, mul_one, mul_one]
  have := mul_le_mul_of_nonneg_left (dv.trans hx') (norm_nonneg T)
  calc _ ≤ ‖T‖ / 2 / 10 ^ 6 + ‖T‖ * (1 / 2 / 10 ^ 6) := add_le_add hr this
    _ = _ := by ring

theorem sin_abs {B : ℝ} (hB : |B| ≤ 180) : Real.sin (|B| * (Real.pi / 180)) = |Real.sin (radians B)| := by
  have hp := Real.pi_pos
  rw [radians]
  have h1 : 0 ≤ Real.sin (|B| * (Real.pi / 180)) := by
    refine Real.sin_nonneg_of_nonneg_of_le_pi (by positivity) ?_
    calc |B| * (Real.pi / 180) ≤ 180 * (Real.pi / 180) := mul_le_mul_of_nonneg_right hB (by positivity)
      _ = Real.pi := by ring
  rcases abs_cases B with ⟨h, -⟩ | ⟨h, -⟩ <;> rw [h] at h1 ⊢
  · rw [abs_of_nonneg h1]
  · rw [neg_mul, Real.sin_neg] at h1 ⊢
    rw [abs_of_nonpos (by linarith)]

/-- The optical depth: a number if there is a signal, from which the library recovers the power; it is negative exactly if the signal is stronger than the
free signal.  Without a signal it is infinite. -/
theorem C124_depth {T : ℂ} {B : ℝ} (hB : |B| ≤ 180) (hs : Real.sin (radians B) ≠ 0) :
    (T ≠ 0 → ∃ t, tauDepth T B = .real t ∧ powerOf t B = tauPower T ∧ (0 ≤ t ↔ ‖T‖ ≤ 1)) ∧ (T = 0 → tauDepth T B = .inf) := by
  have hs' : 0 < |Real.sin (radians B)| := abs_pos.mpr hs
  constructor
  · intro hT
    have hn : 0 < ‖T ^ 2‖ := norm_pos_iff.mpr (pow_ne_zero 2 hT)
    refine ⟨-Real.log ‖T ^ 2‖ * |Real.sin (radians B)|, by rw [tauDepth, if_neg hn.ne'], ?_, ?_⟩
    · rw [powerOf, sin_abs hB, neg_mul, neg_neg, mul_div_assoc, div_self hs'.ne', mul_one, Real.exp_log hn, tauPower]
    · rw [mul_nonneg_iff_of_pos_right hs', neg_nonneg, Real.log_nonpos_iff hn.le, norm_pow, sq_le_one_iff₀ (norm_nonneg T)]
  · rintro rfl
    rw [tauDepth, if_pos (by simp), if_neg hs'.ne']

/-- Seven digits of the depth give the power up to the same part of its logarithm. -/
theorem C124_depth_rounded {T : ℂ} {B t t' : ℝ} (hT : T ≠ 0) (hB : |B| ≤ 180) (hs : Real.sin (radians B) ≠ 0) (ht : tauDepth T B = .real t)
    (ht' : |t' - t| ≤ |t| / 2 / 10 ^ 6) : |Real.log (powerOf t' B) - Real.log (tauPower T)| ≤ |Real.log (tauPower T)| / 2 / 10 ^ 6 := by
  have hs' : 0 < |Real.sin (radians B)| := abs_pos.mpr hs
  obtain ⟨t0, e0, e1, -⟩ := (C124_depth hB hs).1 hT
  rw [ht] at e0
  injection e0 with e0
  subst e0
  rw [← e1, powerOf, powerOf, Real.log_exp, Real.log_exp, sin_abs hB]
  rw [← sub_div, abs_div, abs_div, abs_neg, abs_of_pos hs', show -t' - -t = -(t' - t) by ring, abs_neg]
  calc |t' - t| / |Real.sin (radians B)| ≤ (|t| / 2 / 10 ^ 6) / |Real.sin (radians B)| := div_le_div_of_nonneg_right ht' hs'.le
    _ = _ := by ring

/-- The threshold: what the object holds, and zero for every point if it holds `None`. -/
theorem C124_threshold (l : List ℝ) (n : Nat) : tauThreshold none n = some 0 ∧ (∀ h : n < l.length, tauThreshold (some l) n = some l[n]) := by
  refine ⟨rfl, fun h => ?_⟩
  simp [tauThreshold, h]

/-- A transmission of `i`: power 1 and phase −90°. -/
theorem demo_point : tauPower Complex.I = 1 ∧ tauPhase Complex.I = -90 := by
  refine ⟨by simp [tauPower], ?_⟩
  rw [phase_arg, Complex.conj_I, Complex.arg_neg_I]
  have := Real.pi_ne_zero
  field_simp
  norm_num

/-- Numbers of a table for it, each with an error. -/
example : |(1 + 1 / 10 ^ 7 : ℝ) - tauPower Complex.I| ≤ tauPower Complex.I / 2 / 10 ^ 6 ∧ |(-90 - 1 / 10 ^ 7 : ℝ) - tauPhase Complex.I| ≤ 1 / 2 / 10 ^ 6 ∧
    Complex.I ≠ 0 := by
  rw [demo_point.1, demo_point.2]
  refine ⟨?_, ?_, Complex.I_ne_zero⟩ <;> (rw [abs_le]; norm_num)

theorem demo_sine : Real.sin (radians 30) = 1 / 2 := by
  have : radians 30 = Real.pi / 6 := by rw [radians]; ring
  rw [this, Real.sin_pi_div_six]

/-- A transmission of `exp (-1)` at an elevation of 30°: optical depth 1, written with an error. -/
example : |(30 : ℝ)| ≤ 180 ∧ Real.sin (radians 30) ≠ 0 ∧ ((Real.exp (-1) : ℝ) : ℂ) ≠ 0 ∧ tauDepth ((Real.exp (-1) : ℝ) : ℂ) 30 = .real 1 ∧
    |(1 + 1 / 10 ^ 7 : ℝ) - 1| ≤ |(1 : ℝ)| / 2 / 10 ^ 6 := by
  have hn : ‖((Real.exp (-1) : ℝ) : ℂ) ^ 2‖ = Real.exp (-2) := by
    rw [norm_pow, Complex.norm_real, Real.norm_eq_abs, abs_of_pos (Real.exp_pos _), ← Real.exp_nat_mul]
    norm_num
  refine ⟨by norm_num [abs_of_pos], by rw [demo_sine]; norm_num, ?_, ?_, by rw [abs_of_pos] <;> norm_num⟩
  · exact_mod_cast (Real.exp_pos (-1)).ne'
  · rw [tauDepth, hn, if_neg (Real.exp_pos _).ne', Real.log_exp, demo_sine]
    norm_num

end Verif.Pds
