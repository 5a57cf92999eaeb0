import Verif.Proofs.Rsr

/-!
# Lemmas about the times of the RSR reader
-/
namespace Verif.Rsr
open Spec

theorem Ieee.zero {rnd : ℚ → ℚ} (h : Ieee rnd) : rnd 0 = 0 := by
  have := h.exact 0 0 (by norm_num) (by norm_num)
  simpa using this

theorem Ieee.int {rnd : ℚ → ℚ} (h : Ieee rnd) (n : ℤ) (hn : |n| ≤ 2 ^ 53) : rnd n = n := by
  have := h.exact n 0 hn (by norm_num)
  simpa using this

theorem Ieee.nat {rnd : ℚ → ℚ} (h : Ieee rnd) (n : ℕ) (hn : n ≤ 2 ^ 53) : rnd n = n := by
  have := h.int n (by rw [abs_of_nonneg (by positivity)]; exact_mod_cast hn)
  exact_mod_cast this

/-- Bounds for positive numbers of moderate size. -/
theorem Ieee.pos {rnd : ℚ → ℚ} (h : Ieee rnd) {x : ℚ} (h1 : 1 / 2 ^ 200 ≤ x) (h2 : x ≤ 2 ^ 200) :
    x - x / 2 ^ 53 ≤ rnd x ∧ rnd x ≤ x + x / 2 ^ 53 := by
  have hx : 0 < x := lt_of_lt_of_le (by positivity) h1
  have := h.rel x (by rw [abs_of_pos hx]; exact h1) (by rw [abs_of_pos hx]; exact h2)
  rw [abs_of_pos hx, abs_le] at this
  constructor <;> linarith [this.1, this.2]

/-- `int(a / b)` of two integers. -/
theorem pyInt_div {rnd : ℚ → ℚ} (h : Ieee rnd) (a b : ℕ) (hb : 0 < b) (ha : a < 2 ^ 53) (hb2 : b ≤ 2 ^ 70) :
    (pyInt (rnd ((a : ℚ) / b))).toNat = a / b := by
  rcases Nat.eq_zero_or_pos a with rfl | hpos
  · simp [h.zero, pyInt]
  have hbq : (0 : ℚ) < b := by exact_mod_cast hb
  have hbq2 : (b : ℚ) ≤ 2 ^ 70 := by exact_mod_cast hb2
  have haq : (a : ℚ) < 2 ^ 53 := by exact_mod_cast ha
  have haq1 : (1 : ℚ) ≤ a := by exact_mod_cast hpos
  have hx1 : 1 / 2 ^ 200 ≤ (a : ℚ) / b := by
    rw [le_div_iff₀ hbq]
    have : (1 : ℚ) / 2 ^ 200 * b ≤ 1 / 2 ^ 200 * 2 ^ 70 := mul_le_mul_of_nonneg_left hbq2 (by positivity)
    have k : (1 : ℚ) / 2 ^ 200 * 2 ^ 70 ≤ 1 := by norm_num
    linarith
  have hx2 : (a : ℚ) / b ≤ 2 ^ 200 := by
    rw [div_le_iff₀ hbq]
    have : (1 : ℚ) ≤ b := by exact_mod_cast hb
    have k : (2 : ℚ) ^ 53 ≤ 2 ^ 200 * 1 := by norm_num
    have k2 : (2 : ℚ) ^ 200 * 1 ≤ 2 ^ 200 * b := mul_le_mul_of_nonneg_left this (by positivity)
    linarith
  obtain ⟨l1, l2⟩ := h.pos hx1 hx2
  have herr : (a : ℚ) / b / 2 ^ 53 < 1 / b := by
    rw [div_div, div_lt_div_iff₀ (by positivity) hbq]
    nlinarith
  have hq : ((a / b : ℕ) : ℚ) * b + ((a % b : ℕ) : ℚ) = a := by
    have := Nat.div_add_mod a b
    rw [mul_comm]; exact_mod_cast this
  have hx : (a : ℚ) / b = (a / b : ℕ) + ((a % b : ℕ) : ℚ) / b := by
    rw [eq_comm, ← hq]; field_simp
  have hmod : ((a % b : ℕ) : ℚ) + 1 ≤ b := by exact_mod_cast Nat.mod_lt a hb
  have hub : rnd ((a : ℚ) / b) < (a / b : ℕ) + 1 := by
    have : ((a % b : ℕ) : ℚ) / b + 1 / b ≤ 1 := by rw [← add_div, div_le_one hbq]; exact hmod
    linarith
  have hlb : ((a / b : ℕ) : ℚ) ≤ rnd ((a : ℚ) / b) := by
    rcases Nat.eq_zero_or_pos (a % b) with h0 | h0
    · have : (a : ℚ) / b = ((a / b : ℕ) : ℚ) := by rw [hx, h0]; simp
      rw [this, h.nat _ (le_trans (Nat.div_le_self a b) ha.le)]
    · have : (1 : ℚ) / b ≤ ((a % b : ℕ) : ℚ) / b := by
        rw [div_le_div_iff_of_pos_right hbq]; exact_mod_cast h0
      linarith
  have h0 : (0 : ℚ) ≤ rnd ((a : ℚ) / b) := le_trans (by positivity) hlb
  have : pyInt (rnd ((a : ℚ) / b)) = ((a / b : ℕ) : ℤ) := by
    rw [pyInt, if_pos h0, Int.floor_eq_iff]
    constructor <;> push_cast
    · exact_mod_cast hlb
    · exact_mod_cast hub
  rw [this, Int.toNat_natCast]

/-- `round` of a number close to an integer. -/
theorem pyRound_near (x : ℚ) (n : ℤ) (h : |x - n| < 1 / 2) : pyRound x = n := by
  rw [abs_lt] at h
  obtain ⟨h1, h2⟩ := h
  unfold pyRound
  rcases le_or_gt (n : ℚ) x with k | k
  · have hf : ⌊x⌋ = n := by rw [Int.floor_eq_iff]; constructor <;> linarith
    rw [hf, if_pos (by linarith)]
  · have hf : ⌊x⌋ = n - 1 := by rw [Int.floor_eq_iff]; push_cast; constructor <;> linarith
    rw [hf]
    push_cast
    rw [if_neg (by linarith), if_pos (by linarith)]
    omega

/-- The sampling interval. -/
theorem sampleDt_ok {rnd : ℚ → ℚ} (h : Ieee rnd) (rate : ℕ) (h1 : 0 < rate) (h2 : rate ≤ 65535) :
    ∃ dt, dt = rnd (1 / (rate * 1000)) ∧ sampleDt rnd rate = .ok dt ∧ dt * (rate * 1000) ≤ 1 + 1 / 2 ^ 53 ∧
      1 - 1 / 2 ^ 53 ≤ dt * (rate * 1000) := by
  have e : rnd ((rate : ℚ) * 1000) = rate * 1000 := by
    have := h.nat (rate * 1000) (by omega)
    push_cast at this; exact this
  have hr : (0 : ℚ) < rate * 1000 := by have : (0 : ℚ) < rate := by exact_mod_cast h1
                                        positivity
  have hr2 : (rate : ℚ) * 1000 ≤ 65535000 := by
    have : (rate : ℚ) ≤ 65535 := by exact_mod_cast h2
    linarith
  have hr1 : (1000 : ℚ) ≤ rate * 1000 := by
    have : (1 : ℚ) ≤ rate := by exact_mod_cast h1
    linarith
  refine ⟨rnd (1 / (rate * 1000)), rfl, ?_, ?_⟩
  · unfold sampleDt
    simp only [e]
    rw [if_neg hr.ne']
  · have k1 : 1 / 2 ^ 200 ≤ 1 / ((rate : ℚ) * 1000) := by
      refine one_div_le_one_div_of_le hr (hr2.trans ?_)
      norm_num
    have k2 : 1 / ((rate : ℚ) * 1000) ≤ 2 ^ 200 := by
      rw [div_le_iff₀ hr]
      have : (1 : ℚ) ≤ 2 ^ 200 * 1000 := by norm_num
      have k : (2 : ℚ) ^ 200 * 1000 ≤ 2 ^ 200 * (rate * 1000) := mul_le_mul_of_nonneg_left hr1 (by positivity)
      linarith
    obtain ⟨l1, l2⟩ := h.pos k1 k2
    have c : 1 / ((rate : ℚ) * 1000) * (rate * 1000) = 1 := by field_simp
    constructor
    · have := mul_le_mul_of_nonneg_right l2 hr.le
      have d : (1 / ((rate : ℚ) * 1000) + 1 / ((rate : ℚ) * 1000) / 2 ^ 53) * (rate * 1000) = 1 + 1 / 2 ^ 53 := by
        field_simp
      linarith
    · have := mul_le_mul_of_nonneg_right l1 hr.le
      have d : (1 / ((rate : ℚ) * 1000) - 1 / ((rate : ℚ) * 1000) / 2 ^ 53) * (rate * 1000) = 1 - 1 / 2 ^ 53 := by
        field_simp
      linarith

/-- Absolute error of the rounding of a positive number. -/
theorem Ieee.near {rnd : ℚ → ℚ} (h : Ieee rnd) {x M : ℚ} (h1 : 1 / 2 ^ 200 ≤ x) (h2 : x ≤ M) (hM : M ≤ 2 ^ 100) :
    -(M / 2 ^ 53) ≤ rnd x - x ∧ rnd x - x ≤ M / 2 ^ 53 := by
  have k : (2 : ℚ) ^ 100 ≤ 2 ^ 200 := by norm_num
  obtain ⟨l1, l2⟩ := h.pos h1 (h2.trans (hM.trans k))
  have : x / 2 ^ 53 ≤ M / 2 ^ 53 := by gcongr
  constructor <;> linarith

/-- The hypotheses about the times: sample interval of a rate `R` in Hz, start `s`, number of samples `n`. -/
structure Times (dt R s : ℚ) (n : ℕ) : Prop where
  r1 : 1000 ≤ R
  r2 : R ≤ 65535000
  d1 : dt * R ≤ 1 + 1 / 2 ^ 53
  d2 : 1 - 1 / 2 ^ 53 ≤ dt * R
  s0 : 0 ≤ s
  stop : s + n / R ≤ 2 ^ 19

theorem Times.dt_lower {dt R s : ℚ} {n : ℕ} (t : Times dt R s n) : 1 / 2 ^ 26 ≤ dt := by
  have := t.d2
  have := t.r1
  have := t.r2
  by_contra k
  have k : dt < 1 / 2 ^ 26 := lt_of_not_ge k
  have : dt * R ≤ 1 / 2 ^ 26 * R := mul_le_mul_of_nonneg_right k.le (by linarith)
  have : 1 / 2 ^ 26 * R ≤ 1 / 2 ^ 26 * 65535000 := mul_le_mul_of_nonneg_left t.r2 (by norm_num)
  norm_num at *
  linarith

theorem Times.dt_upper {dt R s : ℚ} {n : ℕ} (t : Times dt R s n) : dt ≤ 1 / 2 ^ 9 := by
  have := t.d1
  by_contra k
  have k : 1 / 2 ^ 9 < dt := lt_of_not_ge k
  have : 1 / 2 ^ 9 * R ≤ dt * R := mul_le_mul_of_nonneg_right k.le (by linarith [t.r1])
  have : 1 / 2 ^ 9 * 1000 ≤ 1 / 2 ^ 9 * R := mul_le_mul_of_nonneg_left t.r1 (by norm_num)
  norm_num at *
  linarith

theorem Times.div_bound {dt R s : ℚ} {n : ℕ} (t : Times dt R s n) : (n : ℚ) / R ≤ 2 ^ 19 := by
  linarith [t.stop, t.s0]

theorem Times.s_bound {dt R s : ℚ} {n : ℕ} (t : Times dt R s n) : s ≤ 2 ^ 19 := by
  have : (0 : ℚ) ≤ n / R := by have := t.r1; positivity
  linarith [t.stop]

theorem Times.n_bound {dt R s : ℚ} {n : ℕ} (t : Times dt R s n) : (n : ℚ) ≤ 2 ^ 45 := by
  have hR : (0 : ℚ) < R := by linarith [t.r1]
  have := t.div_bound
  rw [div_le_iff₀ hR] at this
  have k : (2 : ℚ) ^ 19 * R ≤ 2 ^ 19 * 65535000 := mul_le_mul_of_nonneg_left t.r2 (by norm_num)
  have k2 : (2 : ℚ) ^ 19 * 65535000 ≤ 2 ^ 45 := by norm_num
  linarith

/-- The exact time of a sample after the start is not too large. -/
theorem Times.mul_bound {dt R s : ℚ} {n : ℕ} (t : Times dt R s n) (k : ℕ) (hk : k ≤ n) : dt * k ≤ 2 ^ 20 := by
  have hR : (0 : ℚ) < R := by linarith [t.r1]
  have hkn : (k : ℚ) ≤ n := by exact_mod_cast hk
  have h1 : (k : ℚ) / R ≤ 2 ^ 19 := le_trans (div_le_div_of_nonneg_right hkn hR.le) t.div_bound
  have h0 : (0 : ℚ) ≤ (k : ℚ) / R := by positivity
  have e : dt * k = dt * R * (k / R) := by field_simp
  rw [e]
  have : dt * R * (k / R) ≤ (1 + 1 / 2 ^ 53) * (k / R) := mul_le_mul_of_nonneg_right t.d1 h0
  have : (1 + 1 / 2 ^ 53) * ((k : ℚ) / R) ≤ (1 + 1 / 2 ^ 53) * 2 ^ 19 := mul_le_mul_of_nonneg_left h1 (by norm_num)
  norm_num at *
  linarith

theorem Times.mul_lower {dt R s : ℚ} {n : ℕ} (t : Times dt R s n) (k : ℕ) (hk : 0 < k) : 1 / 2 ^ 26 ≤ dt * k := by
  have h1 : (1 : ℚ) ≤ k := by exact_mod_cast hk
  have := t.dt_lower
  have : dt * 1 ≤ dt * k := mul_le_mul_of_nonneg_left h1 (le_trans (by norm_num) this)
  linarith

/-- The number of points, computed through the end time, is the number of samples. -/
theorem nPoints_ok {rnd : ℚ → ℚ} (h : Ieee rnd) {dt R s : ℚ} {n : ℕ} (t : Times dt R s n) (hn : 0 < n) :
    nPoints rnd s dt n = n := by
  have hdt := t.dt_lower
  have y1 : 1 / 2 ^ 26 ≤ (n : ℚ) * dt := by rw [mul_comm]; exact t.mul_lower n hn
  have y2 : (n : ℚ) * dt ≤ 2 ^ 20 := by rw [mul_comm]; exact t.mul_bound n le_rfl
  have hs := t.s_bound
  have hs0 := t.s0
  have hdt0 : 0 < dt := lt_of_lt_of_le (by norm_num) hdt
  obtain ⟨a1, a2⟩ := h.near (x := n * dt) (M := 2 ^ 20) (le_trans (by norm_num) y1) y2 (by norm_num)
  set A := rnd (n * dt) with hA
  obtain ⟨b1, b2⟩ := h.near (x := s + A) (M := 2 ^ 21)
    (by norm_num at *; linarith) (by norm_num at *; linarith) (by norm_num)
  set B := rnd (s + A) with hB
  obtain ⟨c1, c2⟩ := h.near (x := B - s) (M := 2 ^ 21)
    (by norm_num at *; linarith) (by norm_num at *; linarith) (by norm_num)
  set D := rnd (B - s) with hD
  have e1 : -(1 / 2 ^ 30) ≤ D - n * dt := by norm_num at *; linarith
  have e2 : D - n * dt ≤ 1 / 2 ^ 30 := by norm_num at *; linarith
  have f1 : -(1 / 16) ≤ D / dt - n := by
    have : D / dt - n = (D - n * dt) / dt := by field_simp
    rw [this, le_div_iff₀ hdt0]
    have : -(1 / 16) * dt ≤ -(1 / 16) * (1 / 2 ^ 26) := mul_le_mul_of_nonpos_left hdt (by norm_num)
    norm_num at *
    linarith
  have f2 : D / dt - n ≤ 1 / 16 := by
    have : D / dt - n = (D - n * dt) / dt := by field_simp
    rw [this, div_le_iff₀ hdt0]
    have : 1 / 16 * (1 / 2 ^ 26) ≤ 1 / 16 * dt := mul_le_mul_of_nonneg_left hdt (by norm_num)
    norm_num at *
    linarith
  have hn1 : (1 : ℚ) ≤ n := by exact_mod_cast hn
  have hn2 := t.n_bound
  have w1 : (1 : ℚ) / 2 ^ 200 ≤ 1 / 2 := by norm_num
  have w2 : (2 : ℚ) ^ 45 + 1 / 16 ≤ 2 ^ 46 := by norm_num
  obtain ⟨g1, g2⟩ := h.near (x := D / dt) (M := 2 ^ 46) (by linarith) (by linarith) (by norm_num)
  have : pyRound (rnd (D / dt)) = (n : ℤ) := by
    refine pyRound_near _ _ ?_
    rw [abs_lt]
    push_cast
    constructor <;> (norm_num at *; linarith)
  unfold nPoints
  simp only [← hA, ← hB, ← hD]
  rw [this, Int.toNat_natCast]

/-- Every time is close to the exact one. -/
theorem arange_near {rnd : ℚ → ℚ} (h : Ieee rnd) {dt R s : ℚ} {n : ℕ} (t : Times dt R s n) (hs : rnd s = s) (k : ℕ)
    (hk : k ≤ n) : |rnd (s + rnd (dt * k)) - (s + dt * k)| ≤ 1 / 2 ^ 31 := by
  rcases Nat.eq_zero_or_pos k with rfl | hpos
  · simp only [Nat.cast_zero, mul_zero, h.zero, add_zero, hs, sub_self, abs_zero]
    norm_num
  have y1 := t.mul_lower k hpos
  have y2 := t.mul_bound k hk
  have hs1 := t.s_bound
  have hs0 := t.s0
  obtain ⟨a1, a2⟩ := h.near (x := dt * k) (M := 2 ^ 20) (le_trans (by norm_num) y1) y2 (by norm_num)
  obtain ⟨b1, b2⟩ := h.near (x := s + rnd (dt * k)) (M := 2 ^ 21)
    (by norm_num at *; linarith) (by norm_num at *; linarith) (by norm_num)
  rw [abs_le]
  constructor <;> (norm_num at *; linarith)

/-- Two different samples have clearly different times. -/
theorem arange_lt {rnd : ℚ → ℚ} (h : Ieee rnd) {dt R s : ℚ} {n : ℕ} (t : Times dt R s n) (hs : rnd s = s) (j k : ℕ)
    (hjk : j < k) (hk : k ≤ n) : rnd (s + rnd (dt * j)) + 1 / 2 ^ 27 ≤ rnd (s + rnd (dt * k)) := by
  have h1 := arange_near h t hs j (by omega)
  have h2 := arange_near h t hs k hk
  rw [abs_le] at h1 h2
  have hd := t.dt_lower
  have : (j : ℚ) + 1 ≤ k := by exact_mod_cast hjk
  have : dt * (j + 1) ≤ dt * k := mul_le_mul_of_nonneg_left this (le_trans (by norm_num) hd)
  have : dt * ((j : ℚ) + 1) = dt * j + dt := by ring
  norm_num at *
  linarith [h1.1, h1.2, h2.1, h2.2]

end Verif.Rsr
