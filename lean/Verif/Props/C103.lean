import Verif.Model.CorrectIQ
import Verif.Spec.CorrectIQ
import Mathlib.Analysis.Complex.Trigonometric

/-!
# C103: the frequency offset is taken out of the signal
-/
namespace Verif.Cal
open Verif.Rsr Verif.Cal.Spec

theorem correct_ok {spl : List ℝ → List ℝ → ℝ → ℝ} {spm : List ℝ} {iq : List ℂ} {fSpm fOff : List ℝ} {r : List ℂ}
    (h : correctIQ spl spm iq fSpm fOff = .ok r) : ∃ psi, detrend spl fSpm fOff = .ok psi ∧ spm.length = iq.length ∧
      r = List.zipWith (fun t z => z * Complex.exp (-Complex.I * psi t)) spm iq := by
  unfold correctIQ at h
  cases h1 : detrend spl fSpm fOff with
  | error e => rw [h1] at h; cases h
  | ok psi =>
    rw [h1] at h
    simp only [bind, Except.bind] at h
    split at h
    · rename_i hl
      exact ⟨psi, rfl, hl, (Except.ok.inj h).symm⟩
    · cases h

/-- Only phases change: every sample keeps its power, whatever the offset. -/
theorem C103_power {spl : List ℝ → List ℝ → ℝ → ℝ} {spm : List ℝ} {iq : List ℂ} {fSpm fOff : List ℝ} {r : List ℂ}
    (h : correctIQ spl spm iq fSpm fOff = .ok r) : r.map (‖·‖) = iq.map (‖·‖) := by
  obtain ⟨psi, -, hl, rfl⟩ := correct_ok h
  apply List.ext_getElem
  · simp [hl]
  · intro i h1 h2
    have hi : i < spm.length := by rw [hl]; simpa using h2
    simp only [List.getElem_map, List.getElem_zipWith, norm_mul]
    rw [show -Complex.I * (psi spm[i] : ℂ) = ((-psi spm[i] : ℝ) : ℂ) * Complex.I by push_cast; ring, Complex.norm_exp_ofReal_mul_I,
      mul_one]

theorem sum_arith (B g d : ℝ) (n : Nat) :
    ((List.range n).map fun j : Nat => B + g * (d * (j : ℝ))).sum = n * B + g * d * (n * (n - 1) / 2) := by
  induction n with
  | zero => simp
  | succ n ih =>
    rw [List.range_succ, List.map_append, List.sum_append, ih]
    simp only [List.map_cons, List.map_nil, List.sum_cons, List.sum_nil]
    push_cast
    ring

/-- The phase for a linear offset. -/
theorem detrend_linear {spl : List ℝ → List ℝ → ℝ → ℝ} (hs : CubicExact spl) {fSpm : List ℝ} (hf : fSpm.Pairwise (· < ·))
    {B g : ℝ} {psi : ℝ → ℝ} (h : detrend spl fSpm (fSpm.map fun t => B + g * (t - fSpm.getD 0 0)) = .ok psi) (t : ℝ) :
    psi t = 2 * Real.pi * (B * (t - fSpm.getD 0 0) + g * (t - fSpm.getD 0 0) ^ 2 / 2 + (B / 100 + g * (t - fSpm.getD 0 0) / 200)) := by
  unfold detrend at h
  simp only at h
  split at h
  · cases h
  split at h
  · cases h
  split at h
  · cases h
  rename_i h1 h2 h3
  generalize (roundR ((fSpm.getD (fSpm.length - 1) 0 - fSpm.getD 0 0) / 0.01)).toNat = n at h h3
  generalize fSpm.getD 0 0 = f0 at *
  have hoff : ∀ t, spl fSpm (fSpm.map fun t => B + g * (t - f0)) t = B + g * (t - f0) := by
    intro t
    have := hs fSpm (B - g * f0) g 0 0 hf (by omega) t
    rw [show (fun x : ℝ => B - g * f0 + g * x + 0 * x ^ 2 + 0 * x ^ 3) = fun t => B + g * (t - f0) by funext x; ring] at this
    rw [this]
    ring
  cases h
  have hgrid : ((List.range n).map fun i : Nat => f0 + 0.01 * (i : ℝ)).Pairwise (· < ·) := by
    rw [List.pairwise_map]
    refine List.pairwise_lt_range.imp ?_
    intro a b hab
    have : (a : ℝ) < b := by exact_mod_cast hab
    linarith
  have hrad : ((cumsum (((List.range n).map fun i : Nat => f0 + 0.01 * (i : ℝ)).map (spl fSpm (fSpm.map fun t => B + g * (t - f0))))).map
        fun x => x * 0.01).map (fun x => x * (2 * Real.pi)) =
      ((List.range n).map fun i : Nat => f0 + 0.01 * (i : ℝ)).map fun x =>
        (2 * Real.pi) * (B / 100 - B * f0 + g * f0 ^ 2 / 2 - g * f0 / 200) + (2 * Real.pi) * (B - g * f0 + g / 200) * x
          + (2 * Real.pi) * (g / 2) * x ^ 2 + 0 * x ^ 3 := by
    unfold cumsum
    simp only [List.length_map, List.length_range, List.map_map]
    apply List.map_congr_left
    intro i hi
    have hi := List.mem_range.mp hi
    simp only [Function.comp_apply, ← List.map_take, List.take_range, min_eq_left (show i + 1 ≤ n by omega)]
    have e : ((List.range (i + 1)).map (spl fSpm (fSpm.map fun t => B + g * (t - f0)) ∘ fun i : Nat => f0 + 0.01 * (i : ℝ))) =
        (List.range (i + 1)).map fun j : Nat => B + g * (0.01 * (j : ℝ)) := by
      apply List.map_congr_left
      intro j _
      simp only [Function.comp_apply, hoff]
      ring
    rw [e, sum_arith]
    push_cast
    ring
  rw [hrad, hs _ _ _ _ _ hgrid (by simpa using h3)]
  ring

/-- A signal whose frequency is the constant or linear offset that has been fitted keeps, after the correction, a frequency of
1/200 s times the rate of change of the offset: nothing for a constant offset.  `B`: offset at the first time `f0` of the fit, `g`:
rate of change. -/
theorem C103_linear_partial {spl : List ℝ → List ℝ → ℝ → ℝ} (hs : CubicExact spl) {fSpm : List ℝ} (hf : fSpm.Pairwise (· < ·))
    {B g f0 φ : ℝ} {A : ℂ} (h0 : f0 = fSpm.getD 0 0) {spm : List ℝ} {r : List ℂ}
    (h : correctIQ spl spm (spm.map fun t => tone A (φ + B * (t - f0) + g * (t - f0) ^ 2 / 2)) fSpm
      (fSpm.map fun t => B + g * (t - f0)) = .ok r) :
    r = spm.map fun t => tone A (φ - B / 100 - g / 200 * (t - f0)) := by
  subst h0
  obtain ⟨psi, h1, -, rfl⟩ := correct_ok h
  have hp := detrend_linear hs hf h1
  rw [List.zipWith_map_right]
  rw [List.zipWith_self]
  apply List.map_congr_left
  intro t _
  unfold tone
  rw [mul_assoc, ← Complex.exp_add]
  congr 2
  rw [hp]
  push_cast
  ring

/-- For a constant offset the corrected signal is constant. -/
theorem C103_constant {spl : List ℝ → List ℝ → ℝ → ℝ} (hs : CubicExact spl) {fSpm : List ℝ} (hf : fSpm.Pairwise (· < ·))
    {B f0 φ : ℝ} {A : ℂ} (h0 : f0 = fSpm.getD 0 0) {spm : List ℝ} {r : List ℂ}
    (h : correctIQ spl spm (spm.map fun t => tone A (φ + B * (t - f0))) fSpm (fSpm.map fun _ => B) = .ok r) :
    ∃ z, r = spm.map fun _ => z := by
  have h' := C103_linear_partial (B := B) (g := 0) (φ := φ) (A := A) (r := r) (spm := spm) hs hf h0 (by simpa using h)
  refine ⟨tone A (φ - B / 100), ?_⟩
  rw [h']
  apply List.map_congr_left
  intro t _
  rw [zero_div, zero_mul, sub_zero]

/-- The cubic through the first four points. -/
noncomputable def firstCubic (xs ys : List ℝ) (t : ℝ) : ℝ :=
  match xs, ys with
  | x0 :: x1 :: x2 :: x3 :: _, y0 :: y1 :: y2 :: y3 :: _ =>
    y0 * ((t - x1) * (t - x2) * (t - x3) / ((x0 - x1) * (x0 - x2) * (x0 - x3))) +
    y1 * ((t - x0) * (t - x2) * (t - x3) / ((x1 - x0) * (x1 - x2) * (x1 - x3))) +
    y2 * ((t - x0) * (t - x1) * (t - x3) / ((x2 - x0) * (x2 - x1) * (x2 - x3))) +
    y3 * ((t - x0) * (t - x1) * (t - x2) / ((x3 - x0) * (x3 - x1) * (x3 - x2)))
  | _, _ => 0

/-- The assumption on splines can be met. -/
theorem firstCubic_exact : CubicExact firstCubic := by
  intro xs a b c d hp hl t
  match xs, hp, hl with
  | x0 :: x1 :: x2 :: x3 :: l, hp, _ =>
    simp only [List.pairwise_cons, List.mem_cons, forall_eq_or_imp] at hp
    obtain ⟨⟨h01, h02, h03, -⟩, ⟨h12, h13, -⟩, ⟨h23, -⟩, -⟩ := hp
    simp only [List.map_cons, firstCubic]
    have n01 : x0 - x1 ≠ 0 := by linarith
    have n02 : x0 - x2 ≠ 0 := by linarith
    have n03 : x0 - x3 ≠ 0 := by linarith
    have n12 : x1 - x2 ≠ 0 := by linarith
    have n13 : x1 - x3 ≠ 0 := by linarith
    have n23 : x2 - x3 ≠ 0 := by linarith
    rw [← neg_sub x0 x1, ← neg_sub x0 x2, ← neg_sub x0 x3, ← neg_sub x1 x2, ← neg_sub x1 x3, ← neg_sub x2 x3]
    field_simp
    ring

theorem correct_ex (spl : List ℝ → List ℝ → ℝ → ℝ) {spm : List ℝ} {iq : List ℂ} (hl : spm.length = iq.length) (fOff : List ℝ) :
    ∃ r, correctIQ spl spm iq [0, 1, 2, 3] fOff = .ok r := by
  have hr : (roundR (([0, 1, 2, 3].getD ([(0 : ℝ), 1, 2, 3].length - 1) 0 - [(0 : ℝ), 1, 2, 3].getD 0 0) / 0.01)).toNat = 300 := by
    have : (([0, 1, 2, 3].getD ([(0 : ℝ), 1, 2, 3].length - 1) 0 - [(0 : ℝ), 1, 2, 3].getD 0 0) / 0.01) = ((300 : ℤ) : ℝ) := by
      norm_num
    rw [this]
    unfold roundR
    rw [Int.fract_intCast, if_neg (by norm_num)]
    have : ⌊((300 : ℤ) : ℝ) + 1 / 2⌋ = 300 := by
      rw [Int.floor_intCast_add]
      norm_num
    rw [this]
    rfl
  unfold correctIQ detrend
  simp only [hr]
  rw [if_neg (by simp), if_neg (by simp), if_neg (by norm_num)]
  simp only [bind, Except.bind]
  rw [if_pos hl]
  exact ⟨_, rfl⟩

example : ∃ r : List ℂ, correctIQ firstCubic [0, 1, 2] ([0, 1, 2].map fun t => tone 5 (0 + 3 * (t - 0) + 2 * (t - 0) ^ 2 / 2)) [0, 1, 2, 3]
    ([0, 1, 2, 3].map fun t => 3 + 2 * (t - 0)) = .ok r ∧ [0, 1, 2, (3 : ℝ)].Pairwise (· < ·) := by
  obtain ⟨r, hr⟩ := correct_ex firstCubic (spm := [0, 1, 2]) (iq := [0, 1, 2].map fun t => tone 5 (0 + 3 * (t - 0) + 2 * (t - 0) ^ 2 / 2))
    rfl ([0, 1, 2, 3].map fun t => 3 + 2 * (t - 0))
  exact ⟨r, hr, by norm_num⟩

/-- For an offset that changes it is not: the sum of rectangles is not the integral. -/
theorem C103_changing_false : ¬ ∀ (spl : List ℝ → List ℝ → ℝ → ℝ), CubicExact spl → ∀ (fSpm : List ℝ), fSpm.Pairwise (· < ·) →
    ∀ (B g φ : ℝ) (A : ℂ) (spm : List ℝ) (r : List ℂ),
    correctIQ spl spm (spm.map fun t => tone A (φ + B * (t - fSpm.getD 0 0) + g * (t - fSpm.getD 0 0) ^ 2 / 2)) fSpm
      (fSpm.map fun t => B + g * (t - fSpm.getD 0 0)) = .ok r → ∃ z, r = spm.map fun _ => z := by
  intro h
  have hp : [0, 1, 2, (3 : ℝ)].Pairwise (· < ·) := by norm_num
  obtain ⟨r, hr⟩ := correct_ex firstCubic (spm := [0, 1])
    (iq := [0, 1].map fun t => tone 1 (0 + 0 * (t - [0, 1, 2, (3 : ℝ)].getD 0 0) + 100 * (t - [0, 1, 2, (3 : ℝ)].getD 0 0) ^ 2 / 2))
    rfl ([0, 1, 2, 3].map fun t => 0 + 100 * (t - [0, 1, 2, (3 : ℝ)].getD 0 0))
  obtain ⟨z, hz⟩ := h firstCubic firstCubic_exact [0, 1, 2, 3] hp 0 100 0 1 [0, 1] r hr
  have hl := C103_linear_partial firstCubic_exact hp (A := 1) (B := 0) (g := 100) (φ := 0) rfl hr
  rw [hz] at hl
  simp only [List.map_cons, List.map_nil, List.cons.injEq, List.getD_cons_zero] at hl
  have e : tone 1 (0 - 0 / 100 - 100 / 200 * (0 - 0)) = tone 1 (0 - 0 / 100 - 100 / 200 * (1 - 0)) := hl.1.symm.trans hl.2.1
  unfold tone at e
  rw [show (2 * (Real.pi : ℂ) * ((0 - 0 / 100 - 100 / 200 * (0 - 0) : ℝ) : ℂ) * Complex.I) = 0 by push_cast; ring,
    show (2 * (Real.pi : ℂ) * ((0 - 0 / 100 - 100 / 200 * (1 - 0) : ℝ) : ℂ) * Complex.I) = -(Real.pi * Complex.I) by push_cast; ring,
    Complex.exp_zero, Complex.exp_neg, Complex.exp_pi_mul_I] at e
  norm_num at e

end Verif.Cal
