import Verif.Model.Label
import Verif.Spec.Label
import Verif.Props.C115
import Verif.Props.C86

/-!
# C116: values in labels
-/
namespace Verif.Rsr

theorem expo_spec {x : ℚ} (hx : x ≠ 0) : (2 : ℚ) ^ expo x.num.natAbs x.den ≤ |x| ∧ |x| < 2 ^ (expo x.num.natAbs x.den + 1) := by
  have hn : x.num.natAbs ≠ 0 := Int.natAbs_ne_zero.mpr (Rat.num_ne_zero.mpr hx)
  have hd : x.den ≠ 0 := x.den_nz
  have ha : |x| = (x.num.natAbs : ℚ) / x.den := by
    conv_lhs => rw [← Rat.num_div_den x]
    rw [abs_div, Nat.abs_cast, Nat.cast_natAbs, Int.cast_abs]
  have n1 : (2 : ℚ) ^ (Nat.log2 x.num.natAbs) ≤ x.num.natAbs := by exact_mod_cast Nat.log2_self_le hn
  have n2 : (x.num.natAbs : ℚ) < 2 ^ (Nat.log2 x.num.natAbs + 1) := by exact_mod_cast Nat.lt_log2_self
  have d1 : (2 : ℚ) ^ (Nat.log2 x.den) ≤ x.den := by exact_mod_cast Nat.log2_self_le hd
  have d2 : (x.den : ℚ) < 2 ^ (Nat.log2 x.den + 1) := by exact_mod_cast Nat.lt_log2_self
  have hdp : (0 : ℚ) < x.den := by exact_mod_cast Nat.pos_of_ne_zero hd
  rw [ha]
  generalize ha' : Nat.log2 x.num.natAbs = a at *
  generalize hb : Nat.log2 x.den = b at *
  have lower : (2 : ℚ) ^ ((a : ℤ) - b - 1) ≤ (x.num.natAbs : ℚ) / x.den := by
    rw [le_div_iff₀ hdp]
    calc (2 : ℚ) ^ ((a : ℤ) - b - 1) * x.den ≤ (2 : ℚ) ^ ((a : ℤ) - b - 1) * 2 ^ (b + 1) := by
          apply mul_le_mul_of_nonneg_left d2.le (zpow_nonneg (by norm_num) _)
      _ = 2 ^ a := by
          rw [← zpow_natCast, ← zpow_natCast, ← zpow_add₀ (by norm_num)]
          congr 1
          push_cast
          ring
      _ ≤ _ := n1
  have upper : (x.num.natAbs : ℚ) / x.den < (2 : ℚ) ^ ((a : ℤ) - b + 1) := by
    rw [div_lt_iff₀ hdp]
    calc (x.num.natAbs : ℚ) < 2 ^ (a + 1) := n2
      _ = (2 : ℚ) ^ ((a : ℤ) - b + 1) * 2 ^ b := by
          rw [← zpow_natCast, ← zpow_natCast, ← zpow_add₀ (by norm_num)]
          congr 1
          push_cast
          ring
      _ ≤ _ := by apply mul_le_mul_of_nonneg_left d1 (zpow_nonneg (by norm_num) _)
  simp only [expo, hb, ha']
  split
  · rename_i h
    exact ⟨h, upper⟩
  · rename_i h
    exact ⟨lower, by rw [sub_add_cancel]; exact not_le.mp h⟩

theorem pyRound_int (n : ℤ) : pyRound n = n := by
  simp [pyRound]

/-- The relative error is at most 2⁻⁵³. -/
theorem rnd53_rel (x : ℚ) : |rnd53 x - x| ≤ |x| / 2 ^ 53 := by
  by_cases hx : x = 0
  · simp [rnd53, hx]
  · obtain ⟨h1, -⟩ := expo_spec hx
    simp only [rnd53, if_neg hx]
    set e := expo x.num.natAbs x.den
    have hu : (0 : ℚ) < 2 ^ (e - 52) := zpow_pos (by norm_num) _
    have near := Verif.Pds.pyRound_near (x / 2 ^ (e - 52))
    have e1 : (pyRound (x / 2 ^ (e - 52)) : ℚ) * 2 ^ (e - 52) - x = ((pyRound (x / 2 ^ (e - 52)) : ℚ) - x / 2 ^ (e - 52)) * 2 ^ (e - 52) := by
      rw [sub_mul, div_mul_cancel₀ _ hu.ne']
    rw [e1, abs_mul, abs_of_pos hu, le_div_iff₀ (by positivity)]
    have e2 : (2 : ℚ) ^ (e - 52) * 2 ^ 53 = 2 * 2 ^ e := by
      rw [zpow_sub₀ (by norm_num)]
      norm_num
      ring
    calc _ ≤ 1 / 2 * (2 : ℚ) ^ (e - 52) * 2 ^ 53 := by
          apply mul_le_mul_of_nonneg_right _ (by positivity)
          exact mul_le_mul_of_nonneg_right near hu.le
      _ = 2 ^ e := by rw [mul_assoc, e2]; ring
      _ ≤ _ := h1

/-- Numbers of 53 bits are not changed. -/
theorem rnd53_exact (n k : ℤ) (hn : |n| ≤ 2 ^ 53) : rnd53 (n * 2 ^ k) = n * 2 ^ k := by
  have key : ∀ n k : ℤ, |n| < 2 ^ 53 → rnd53 (n * 2 ^ k) = n * 2 ^ k := by
    intro n k hn
    by_cases hx : (n : ℚ) * 2 ^ k = 0
    · rw [hx]; simp [rnd53]
    · obtain ⟨h1, -⟩ := expo_spec hx
      simp only [rnd53, if_neg hx]
      set e := expo ((n : ℚ) * 2 ^ k).num.natAbs ((n : ℚ) * 2 ^ k).den
      have hu : (0 : ℚ) < 2 ^ (e - 52) := zpow_pos (by norm_num) _
      have hk : e < k + 53 := by
        have hlt : (2 : ℚ) ^ e < 2 ^ (k + 53) := by
          refine lt_of_le_of_lt h1 ?_
          rw [abs_mul, abs_of_pos (zpow_pos (by norm_num : (0 : ℚ) < 2) k), zpow_add₀ (by norm_num), mul_comm]
          apply mul_lt_mul_of_pos_left _ (zpow_pos (by norm_num) _)
          have : ((|n| : ℤ) : ℚ) < ((2 ^ 53 : ℤ) : ℚ) := by exact_mod_cast hn
          rw [Int.cast_abs] at this
          refine lt_of_lt_of_le this ?_
          norm_num
        exact (zpow_lt_zpow_iff_right₀ (by norm_num)).mp hlt
      obtain ⟨j, hj⟩ := Int.eq_ofNat_of_zero_le (show 0 ≤ k - (e - 52) by omega)
      have hint : (n : ℚ) * 2 ^ k / 2 ^ (e - 52) = ((n * 2 ^ j : ℤ) : ℚ) := by
        rw [mul_div_assoc, ← zpow_sub₀ (by norm_num), hj]
        push_cast
        simp
      rw [hint, pyRound_int, ← hint, div_mul_cancel₀ _ hu.ne']
  rcases lt_or_eq_of_le hn with h | h
  · exact key n k h
  · have hs : n = 2 * (n / 2) := by
      rcases abs_eq (by positivity) |>.mp h with h | h <;> rw [h] <;> norm_num
    have e : (n : ℚ) * 2 ^ k = ((n / 2 : ℤ) : ℚ) * 2 ^ (k + 1) := by
      rw [zpow_add₀ (by norm_num), zpow_one]
      conv_lhs => rw [hs]
      push_cast
      ring
    rw [e]
    apply key
    rcases abs_eq (by positivity) |>.mp h with h | h <;> rw [h] <;> norm_num

/-- It has all the properties that are assumed of the rounding of floats. -/
theorem rnd53_ieee : Ieee rnd53 where
  rel x _ _ := rnd53_rel x
  exact n k hn _ := by
    have := rnd53_exact n (-k) hn
    rwa [zpow_neg, zpow_natCast, ← div_eq_mul_inv] at this
  double u q h := by
    have hs : ∃ s : ℤ, (if u / 2 ^ 63 % 2 = 1 then (-1 : ℚ) else 1) = s ∧ |s| = 1 := by
      split
      · exact ⟨-1, by norm_num, by norm_num⟩
      · exact ⟨1, by norm_num, by norm_num⟩
    obtain ⟨s, hs, hs1⟩ := hs
    have hf : u % 2 ^ 52 < 2 ^ 52 := Nat.mod_lt _ (by positivity)
    simp only [dblOfBits, hs] at h
    split at h
    · split at h
      · cases h
      · split at h <;> cases h
    · split at h
      · have hq : q = ((s * (u % 2 ^ 52 : ℕ) : ℤ) : ℚ) * 2 ^ (-1074 : ℤ) := by
          have := Dbl.fin.inj h
          rw [← this, div_eq_mul_inv]
          push_cast
          rw [zpow_neg]
          rfl
        rw [hq]
        apply rnd53_exact
        rw [abs_mul, hs1, one_mul, abs_of_nonneg (by positivity)]
        have : ((u % 2 ^ 52 : ℕ) : ℤ) < ((2 ^ 52 : ℕ) : ℤ) := by exact_mod_cast hf
        refine le_of_lt (lt_of_lt_of_le this ?_)
        norm_num
      · have hq : q = ((s * ((2 ^ 52 + u % 2 ^ 52 : ℕ) : ℤ) : ℤ) : ℚ) * 2 ^ (((u / 2 ^ 52 % 2048 : ℕ) : ℤ) - 1075) := by
          have := Dbl.fin.inj h
          rw [← this, zpow_sub₀ (by norm_num), zpow_natCast]
          push_cast
          rw [mul_div_assoc]
          rfl
        rw [hq]
        apply rnd53_exact
        rw [abs_mul, hs1, one_mul, abs_of_nonneg (by positivity)]
        have : ((2 ^ 52 + u % 2 ^ 52 : ℕ) : ℤ) < ((2 ^ 52 + 2 ^ 52 : ℕ) : ℤ) := by exact_mod_cast (by omega)
        refine le_of_lt (lt_of_lt_of_le this ?_)
        norm_num

end Verif.Rsr

namespace Verif.Pds
open Verif.Rsr Verif.Out Verif.Geo Spec

theorem modOne_nonneg (rnd : ℚ → ℚ) {x : ℚ} (hx : 0 ≤ x) : modOne rnd x = Int.fract x := by
  have h : x - pyInt x = Int.fract x := by rw [pyInt, if_pos hx, Int.self_sub_floor]
  have hn := Int.fract_nonneg x
  simp only [modOne, h, if_neg (not_lt.mpr hn)]

theorem pyInt_nonneg' {x : ℚ} (hx : 0 ≤ x) : pyInt x = ⌊x⌋ := by simp [pyInt, if_pos hx]

/-- Hours, minutes and seconds together are the time up to the fraction of a second and the rounding. -/
theorem clock_sum {rnd : ℚ → ℚ} {ε : ℚ} (h0 : 0 ≤ ε) (h1 : ε ≤ 1) (hr : ∀ x, |rnd x - x| ≤ ε * |x|) {x : ℚ} (hx : 0 ≤ x) :
    ∃ (h m s : Nat) (f : ℚ), clock rnd x = ((h : ℤ), (m : ℤ), (s : ℤ)) ∧ 0 ≤ f ∧ f < 1 ∧
      |((3600 * h + 60 * m + s : Nat) : ℚ) + f - x| ≤ ε * (3 * x + 3660) ∧
      (m : ℚ) < 60 * (1 + ε) ∧ (s : ℚ) < 60 * (1 + ε) := by
  have pos : ∀ y, 0 ≤ y → 0 ≤ rnd y := by
    intro y hy
    have := abs_le.mp (hr y)
    rw [abs_of_nonneg hy] at this
    nlinarith [this.1]
  have hq : (0 : ℚ) ≤ x / 60 := by positivity
  set a := rnd (x / 60) with ha
  have ha0 : 0 ≤ a := pos _ hq
  set H := rnd (a / 60) with hH
  have hH0 : 0 ≤ H := pos _ (by positivity)
  have fH := Int.fract_nonneg H
  have fH1 := Int.fract_lt_one H
  set M := rnd (Int.fract H * 60) with hM
  have hM0 : 0 ≤ M := pos _ (by positivity)
  have fM := Int.fract_nonneg M
  have fM1 := Int.fract_lt_one M
  set S := rnd (Int.fract M * 60) with hS
  have hS0 : 0 ≤ S := pos _ (by positivity)
  have fS := Int.fract_nonneg S
  have fS1 := Int.fract_lt_one S
  have ec : clock rnd x = (⌊H⌋, ⌊M⌋, ⌊S⌋) := by
    simp only [clock, ← ha, ← hH, modOne_nonneg rnd hH0, ← hM, modOne_nonneg rnd hM0, ← hS, pyInt_nonneg' hH0, pyInt_nonneg' hM0,
      pyInt_nonneg' hS0]
  obtain ⟨h, eh⟩ := Int.eq_ofNat_of_zero_le (Int.floor_nonneg.mpr hH0)
  obtain ⟨m, em⟩ := Int.eq_ofNat_of_zero_le (Int.floor_nonneg.mpr hM0)
  obtain ⟨s, es⟩ := Int.eq_ofNat_of_zero_le (Int.floor_nonneg.mpr hS0)
  have r1 := abs_le.mp (hr (x / 60))
  have r2 := abs_le.mp (hr (a / 60))
  have r3 := abs_le.mp (hr (Int.fract H * 60))
  have r4 := abs_le.mp (hr (Int.fract M * 60))
  rw [abs_of_nonneg hq, ← ha] at r1
  rw [abs_of_nonneg (by positivity), ← hH] at r2
  rw [abs_of_nonneg (by positivity), ← hM] at r3
  rw [abs_of_nonneg (by positivity), ← hS] at r4
  have iH : (h : ℚ) + Int.fract H = H := by
    have := Int.floor_add_fract H
    rw [eh] at this
    exact_mod_cast this
  have iM : (m : ℚ) + Int.fract M = M := by
    have := Int.floor_add_fract M
    rw [em] at this
    exact_mod_cast this
  have iS : (s : ℚ) + Int.fract S = S := by
    have := Int.floor_add_fract S
    rw [es] at this
    exact_mod_cast this
  have hae : ε * a ≤ ε * (x / 30) := by
    apply mul_le_mul_of_nonneg_left _ h0
    have : ε * (x / 60) ≤ 1 * (x / 60) := mul_le_mul_of_nonneg_right h1 hq
    linarith [r1.2]
  have b3 : ε * (Int.fract H * 60) ≤ ε * 60 := mul_le_mul_of_nonneg_left (by linarith) h0
  have b4 : ε * (Int.fract M * 60) ≤ ε * 60 := mul_le_mul_of_nonneg_left (by linarith) h0
  refine ⟨h, m, s, Int.fract S, by rw [ec, eh, em, es], fS, fS1, ?_, by linarith [r3.2], by linarith [r4.2]⟩
  rw [abs_le]
  push_cast
  constructor <;> nlinarith [r1.1, r1.2, r2.1, r2.2, r3.1, r3.2, r4.1, r4.2]

theorem zfill2_two : ∀ n : Nat, n < 100 → zfill2 (n : ℤ) = two n := by decide +kernel

/-- In exact arithmetic the time is right, for all times of the day. -/
theorem C116_time_exact {x : ℚ} (h0 : 0 ≤ x) (h1 : x < 86400) (year doy : List Char) :
    ∃ h m s, TimeOfDay x h m s ∧ isod id x year doy = timeText year doy h m s := by
  obtain ⟨h, m, s, f, ec, hf0, hf1, he, hm, hs⟩ := clock_sum (rnd := id) (ε := 0) le_rfl (by norm_num) (by simp) h0
  rw [zero_mul] at he
  have he := abs_nonpos_iff.mp he
  have hm : m < 60 := by
    have : (m : ℚ) < 60 := by simpa using hm
    exact_mod_cast this
  have hs : s < 60 := by
    have : (s : ℚ) < 60 := by simpa using hs
    exact_mod_cast this
  have hh : h < 24 := by
    by_contra hc
    have hc : (24 : ℚ) ≤ h := by exact_mod_cast not_lt.mp hc
    push_cast at he
    have : (0 : ℚ) ≤ m := by positivity
    have : (0 : ℚ) ≤ s := by positivity
    linarith
  refine ⟨h, m, s, ⟨hh, hm, hs, by linarith, by linarith⟩, ?_⟩
  simp only [isod, ec, timeText, zfill2_two h (by omega), zfill2_two m (by omega), zfill2_two s (by omega)]

example : (0 : ℚ) ≤ 36061.5 ∧ (36061.5 : ℚ) < 86400 ∧ isod id 36061.5 "2005".toList "123".toList = "2005-123T10:01:01".toList := by decide +kernel

/-- With rounding the time shown is at most one second (and 10⁻¹⁰ s) early and never late by more than 10⁻¹⁰ s. -/
theorem C116_time_partial {rnd : ℚ → ℚ} (hr : ∀ x, |rnd x - x| ≤ |x| / 2 ^ 53) {x : ℚ} (h0 : 0 ≤ x) (h1 : x < 86400) :
    ∃ h m s : Nat, clock rnd x = ((h : ℤ), (m : ℤ), (s : ℤ)) ∧ h ≤ 24 ∧ m ≤ 60 ∧ s ≤ 60 ∧
      x - 1 - 1 / 10 ^ 10 < ((3600 * h + 60 * m + s : Nat) : ℚ) ∧ ((3600 * h + 60 * m + s : Nat) : ℚ) ≤ x + 1 / 10 ^ 10 := by
  obtain ⟨h, m, s, f, ec, hf0, hf1, he, hm, hs⟩ := clock_sum (rnd := rnd) (ε := 1 / 2 ^ 53) (by positivity) (by norm_num)
    (fun y => by have := hr y; rw [div_eq_inv_mul] at this; simpa using this) h0
  have he := abs_le.mp he
  have bound : (1 : ℚ) / 2 ^ 53 * (3 * x + 3660) ≤ 1 / 10 ^ 10 := by
    have : (1 : ℚ) / 2 ^ 53 * (3 * x + 3660) ≤ 1 / 2 ^ 53 * 262860 := mul_le_mul_of_nonneg_left (by linarith) (by positivity)
    refine this.trans ?_
    norm_num
  have lt61 : (60 : ℚ) * (1 + 1 / 2 ^ 53) < 61 := by norm_num
  have hm : m < 61 := by exact_mod_cast lt_trans hm lt61
  have hs : s < 61 := by exact_mod_cast lt_trans hs lt61
  have hx : ((3600 * h + 60 * m + s : Nat) : ℚ) ≤ x + 1 / 10 ^ 10 := by linarith [he.2]
  refine ⟨h, m, s, ec, ?_, by omega, by omega, by linarith [he.1], hx⟩
  by_contra hc
  have hc : (25 : ℚ) ≤ h := by exact_mod_cast not_le.mp hc
  have : (0 : ℚ) ≤ m := by positivity
  have : (0 : ℚ) ≤ s := by positivity
  push_cast at hx
  have : (1 : ℚ) / 10 ^ 10 ≤ 1 := by norm_num
  linarith

example : (∀ x, |rnd53 x - x| ≤ |x| / 2 ^ 53) ∧ (0 : ℚ) ≤ 57 ∧ (57 : ℚ) < 86400 := ⟨rnd53_rel, by norm_num, by norm_num⟩

/-- With the rounding of floats 57 seconds after midnight is shown as 56 seconds. -/
theorem C116_time_false : Ieee rnd53 ∧ rnd53 57 = 57 ∧ isod rnd53 57 "2005".toList "123".toList = "2005-123T00:00:56".toList ∧
    TimeOfDay 57 0 0 57 ∧ ¬ TimeOfDay 57 0 0 56 := by
  refine ⟨rnd53_ieee, by decide +kernel, by decide +kernel, ?_, ?_⟩
  · refine ⟨by norm_num, by norm_num, by norm_num, by norm_num, by norm_num⟩
  · rintro ⟨-, -, -, -, h⟩
    norm_num at h

/-- Times before and after the day keep its date: 23:42 of the day before becomes 00:42 of this day, 1:00 of the next one 25:00. -/
theorem C116_midnight_false : isod id (-1080) "2005".toList "123".toList = "2005-123T00:42:00".toList ∧
    isod id 90000 "2005".toList "123".toList = "2005-123T25:00:00".toList := by decide +kernel

/-- If the rows are in the order of falling times (radii that grow in an ingress profile) then the start is after the end. -/
theorem C116_order_false {t : List ℚ} {a b : ℚ} (ha : t.head? = some a) (hb : t.getLast? = some b) (h0 : 0 ≤ b) (hab : b + 1 ≤ a)
    (h1 : a < 86400) (year doy : List Char) : ∃ h m s h' m' s', TimeOfDay a h m s ∧ TimeOfDay b h' m' s' ∧
      startStop id year doy t = .ok (timeText year doy h m s, timeText year doy h' m' s') ∧ 3600 * h' + 60 * m' + s' < 3600 * h + 60 * m + s := by
  obtain ⟨h, m, s, e1, t1⟩ := C116_time_exact (x := a) (by linarith) h1 year doy
  obtain ⟨h', m', s', e2, t2⟩ := C116_time_exact (x := b) h0 (by linarith) year doy
  refine ⟨h, m, s, h', m', s', e1, e2, ?_, ?_⟩
  · cases t with
    | nil => simp at ha
    | cons y ys =>
      obtain rfl : y = a := by simpa using ha
      have hl : (y :: ys).getLast (by simp) = b := by
        rw [List.getLast?_eq_some_getLast (by simp)] at hb
        simpa using hb
      simp only [startStop, hl, t1, t2]
  · obtain ⟨-, -, -, -, g1⟩ := e1
    obtain ⟨-, -, -, g2, -⟩ := e2
    have : ((3600 * h' + 60 * m' + s' : Nat) : ℚ) < ((3600 * h + 60 * m + s : Nat) : ℚ) := by linarith
    exact_mod_cast this

example : [20000, 19000, (18000 : ℚ)].head? = some 20000 ∧ [20000, 19000, (18000 : ℚ)].getLast? = some 18000 ∧
    startStop id "2005".toList "123".toList [20000, 19000, 18000] = .ok ("2005-123T05:33:20".toList, "2005-123T05:00:00".toList) := by
  decide +kernel

/-- The interval of the label is the first interval with four decimals, if the first and the last interval differ by less than 0.001. -/
theorem C116_interval_partial {l : List ℚ} (h2 : 2 ≤ l.length)
    (hd : |(l.getD 1 0 - l.getD 0 0) - (l.getD (l.length - 1) 0 - l.getD (l.length - 2) 0)| < 1 / 1000) :
    samplingInterval l = .ok (fixed 4 (l.getD 1 0 - l.getD 0 0)) := by
  have := abs_lt.mp hd
  simp only [samplingInterval, if_neg (not_lt.mpr h2)]
  rw [if_pos ⟨by linarith [this.1], by linarith [this.2]⟩]

example : 2 ≤ [74000, 74000.25, (74000.5 : ℚ)].length ∧ samplingInterval [74000, 74000.25, 74000.5] = .ok "0.2500".toList := by decide +kernel

/-- Otherwise the function fails, although it announces that it will use the first interval. -/
theorem C116_interval_false {l : List ℚ} (h2 : 2 ≤ l.length)
    (hd : 1 / 1000 ≤ |(l.getD 1 0 - l.getD 0 0) - (l.getD (l.length - 1) 0 - l.getD (l.length - 2) 0)|) :
    samplingInterval l = .error .unboundLocal := by
  simp only [samplingInterval, if_neg (not_lt.mpr h2)]
  rw [if_neg]
  rintro ⟨h, h'⟩
  exact absurd (abs_lt.mpr ⟨by linarith, by linarith⟩) (not_lt.mpr hd)

example : 2 ≤ [0, 1, (2.5 : ℚ)].length ∧ (1 : ℚ) / 1000 ≤ |((1 : ℚ) - 0) - (2.5 - 1)| := by
  refine ⟨by decide, ?_⟩
  rw [abs_of_neg] <;> norm_num

/-- The direction of the label is that of the first and the last step; it cannot be found if one of them is 0. -/
theorem C116_direction {r : List ℚ} (h2 : 2 ≤ r.length) :
    let first := r.getD 1 0 - r.getD 0 0
    let last := r.getD (r.length - 1) 0 - r.getD (r.length - 2) 0
    (profileDirection r = .ok ("\"INGRESS\"", 'I') ↔ first < 0 ∧ last < 0) ∧
    (profileDirection r = .ok ("\"EGRESS\"", 'E') ↔ 0 < first ∧ 0 < last) ∧
    (profileDirection r = .ok ("\"BOTH\"", 'C') ↔ first * last < 0) ∧
    (profileDirection r = .error .unboundLocal ↔ first = 0 ∨ last = 0) := by
  intro first last
  have e : profileDirection r = (match (if (first < 0 ∧ 0 < last) ∨ (0 < first ∧ last < 0) then some ("\"BOTH\"", 'C') else
      if 0 < first ∧ 0 < last then some ("\"EGRESS\"", 'E') else if first < 0 ∧ last < 0 then some ("\"INGRESS\"", 'I') else none) with
      | some x => (.ok x : Py (String × Char))
      | none => .error .unboundLocal) := by
    simp only [profileDirection, if_neg (not_lt.mpr h2)]
    rfl
  rw [e]
  generalize first = a, last = b
  rcases lt_trichotomy a 0 with h | h | h <;> rcases lt_trichotomy b 0 with h' | h' | h' <;>
    simp [h, h', not_lt.mpr h.le, not_lt.mpr h'.le, mul_neg_of_neg_of_pos, mul_neg_of_pos_of_neg]
  · exact ⟨(mul_pos_of_neg_of_neg h h').le, h.ne, h'.ne⟩
  · exact ⟨h.ne, h'.ne'⟩
  · exact ⟨h.ne', h'.ne⟩
  · exact ⟨h'.le, h.ne', h'.ne'⟩

example : 2 ≤ [3, 2, (4 : ℚ)].length ∧ profileDirection [3, 2, 4] = .ok ("\"BOTH\"", 'C') ∧ profileDirection [3, 2, 1] = .ok ("\"INGRESS\"", 'I') ∧
    profileDirection [1, 1, 2] = .error .unboundLocal := by decide +kernel

theorem foldl_min_spec : ∀ (l : List ℚ) (x : ℚ), l.foldl min x ∈ x :: l ∧ ∀ y ∈ x :: l, l.foldl min x ≤ y
  | [], x => by simp
  | z :: l, x => by
    obtain ⟨h1, h2⟩ := foldl_min_spec l (min x z)
    rw [List.foldl_cons]
    have h0 := h2 (min x z) (by simp)
    constructor
    · rcases List.mem_cons.mp h1 with h | h
      · rw [h]
        rcases min_choice x z with h' | h' <;> rw [h'] <;> simp
      · simp [h]
    · intro y hy
      simp only [List.mem_cons] at hy
      rcases hy with rfl | rfl | hy
      · exact h0.trans (min_le_left _ _)
      · exact h0.trans (min_le_right _ _)
      · exact h2 y (by simp [hy])

theorem foldl_max_spec : ∀ (l : List ℚ) (x : ℚ), l.foldl max x ∈ x :: l ∧ ∀ y ∈ x :: l, y ≤ l.foldl max x
  | [], x => by simp
  | z :: l, x => by
    obtain ⟨h1, h2⟩ := foldl_max_spec l (max x z)
    rw [List.foldl_cons]
    have h0 := h2 (max x z) (by simp)
    constructor
    · rcases List.mem_cons.mp h1 with h | h
      · rw [h]
        rcases max_choice x z with h' | h' <;> rw [h'] <;> simp
      · simp [h]
    · intro y hy
      simp only [List.mem_cons] at hy
      rcases hy with rfl | rfl | hy
      · exact (le_max_left _ _).trans h0
      · exact (le_max_right _ _).trans h0
      · exact h2 y (by simp [hy])

/-- The radii of the label are the least and the greatest radius, up to 5 cm. -/
theorem C116_radius {r : List ℚ} (hr : r ≠ []) : ∃ a b, radiusRange r = .ok (a, b) ∧ ∃ lo ∈ r, ∃ hi ∈ r, (∀ y ∈ r, lo ≤ y ∧ y ≤ hi) ∧
    |a - lo| ≤ 1 / 2 / 10 ^ 4 ∧ |b - hi| ≤ 1 / 2 / 10 ^ 4 := by
  have near : ∀ x : ℚ, |(pyRound (x * 10 ^ 4) : ℚ) / 10 ^ 4 - x| ≤ 1 / 2 / 10 ^ 4 := by
    intro x
    have e : (pyRound (x * 10 ^ 4) : ℚ) / 10 ^ 4 - x = ((pyRound (x * 10 ^ 4) : ℚ) - x * 10 ^ 4) / 10 ^ 4 := by field_simp
    rw [e, abs_div, abs_of_pos (by positivity : (0 : ℚ) < 10 ^ 4)]
    exact div_le_div_of_nonneg_right (pyRound_near _) (by positivity)
  cases r with
  | nil => exact absurd rfl hr
  | cons x xs =>
    refine ⟨_, _, rfl, _, (foldl_min_spec xs x).1, _, (foldl_max_spec xs x).1, fun y hy => ⟨(foldl_min_spec xs x).2 y hy, (foldl_max_spec xs x).2 y hy⟩, near _, near _⟩

example : [74500.00003, (74000 : ℚ), 74250] ≠ [] ∧ radiusRange [74500.00003, 74000, 74250] = .ok (74000, 74500) := by decide +kernel

end Verif.Pds
