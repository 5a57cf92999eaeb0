import Verif.Spec.Times
import Verif.Proofs.RsrNum

/-!
# C74: from seconds past midnight to UTC
-/
namespace Verif.Rsr
open Spec

theorem pyRound_err (x : ℚ) : |(pyRound x : ℚ) - x| ≤ 1 / 2 := by
  have h1 := Int.floor_le x
  have h2 := Int.lt_floor_add_one x
  unfold pyRound
  split_ifs with a b c <;> rw [abs_le] <;> push_cast <;> constructor <;> linarith

theorem pyRound_nonneg {x : ℚ} (h : 0 ≤ x) : 0 ≤ pyRound x := by
  have : 0 ≤ ⌊x⌋ := Int.floor_nonneg.mpr h
  unfold pyRound
  split_ifs <;> omega

theorem daysBefore_succ (y : Int) : daysBefore (y + 1) = daysBefore y + yearLen y := by
  unfold daysBefore yearLen
  by_cases l : isLeap y
  · rw [if_pos l]; unfold isLeap at l; omega
  · rw [if_neg l]; unfold isLeap at l; omega

theorem pyInt_nonneg {x : ℚ} (h : 0 ≤ x) : pyInt x = ⌊x⌋ := by rw [pyInt, if_pos h]

theorem floor_add_frac (n : ℤ) {f : ℚ} (h0 : 0 ≤ f) (h1 : f < 1) : ⌊(n : ℚ) + f⌋ = n := by
  rw [Int.floor_eq_iff]
  constructor <;> linarith

/-- The clock fields of a non-negative time. -/
theorem clock_split {s : ℚ} (h : 0 ≤ s) :
    ∃ H M : ℤ, pyInt (s / 3600) = H ∧ pyInt ((pyInt (s - H * 3600) : ℚ) / 60) = M ∧ 0 ≤ H ∧ 0 ≤ M ∧ M < 60 ∧
      0 ≤ s - H * 3600 - M * 60 ∧ s - H * 3600 - M * 60 < 60 := by
  have hq : 0 ≤ s / 3600 := by positivity
  refine ⟨⌊s / 3600⌋, ⌊((⌊s - ⌊s / 3600⌋ * 3600⌋ : ℤ) : ℚ) / 60⌋, pyInt_nonneg hq, ?_, ?_⟩
  · have a := Int.floor_le (s / 3600)
    have hr : 0 ≤ s - ⌊s / 3600⌋ * 3600 := by linarith
    rw [pyInt_nonneg hr, pyInt_nonneg]
    have : (0 : ℚ) ≤ (⌊s - ⌊s / 3600⌋ * 3600⌋ : ℤ) := by exact_mod_cast Int.floor_nonneg.mpr hr
    positivity
  · have a := Int.floor_le (s / 3600)
    have b := Int.lt_floor_add_one (s / 3600)
    have hr : 0 ≤ s - ⌊s / 3600⌋ * 3600 := by linarith
    generalize hH : ⌊s / 3600⌋ = H at *
    have c := Int.floor_le (s - H * 3600)
    have d := Int.lt_floor_add_one (s - H * 3600)
    have hR : 0 ≤ ⌊s - H * 3600⌋ := Int.floor_nonneg.mpr hr
    have hR2 : ⌊s - H * 3600⌋ < 3600 := by
      rw [Int.floor_lt]; push_cast; linarith
    generalize ⌊s - H * 3600⌋ = R at *
    have e : ⌊((R : ℤ) : ℚ) / 60⌋ = R / 60 := by
      rw [Int.floor_eq_iff]
      have h1 : (60 : ℚ) * ((R / 60 : ℤ) : ℚ) ≤ R := by exact_mod_cast Int.mul_ediv_self_le (by norm_num)
      have h2 : (R : ℚ) < 60 * (((R / 60 : ℤ) : ℚ) + 1) := by
        have : R < 60 * (R / 60 + 1) := by omega
        exact_mod_cast this
      constructor
      · rw [le_div_iff₀ (by norm_num)]; linarith
      · rw [div_lt_iff₀ (by norm_num)]; linarith
    rw [e]
    have h1 : (60 : ℚ) * ((R / 60 : ℤ) : ℚ) ≤ R := by exact_mod_cast Int.mul_ediv_self_le (by norm_num)
    have h2 : (R : ℚ) + 1 ≤ 60 * (((R / 60 : ℤ) : ℚ) + 1) := by
      have : R + 1 ≤ 60 * (R / 60 + 1) := by omega
      exact_mod_cast this
    have hH0 : 0 ≤ H := by rw [← hH]; exact Int.floor_nonneg.mpr hq
    refine ⟨hH0, by omega, by omega, by linarith, by linarith⟩

/-- The calendar fields: `N` days after 1 January. -/
theorem calendar_split (doy H d : ℤ) (hd : 0 < d) (h0 : 0 ≤ doy - 1 + H / 24) :
    ⌊((doy : ℚ) + H / 24 - 1) / d⌋ = (doy - 1 + H / 24) / d ∧
    pyInt (1 + pyMod ((doy : ℚ) + H / 24 - 1) d) = 1 + (doy - 1 + H / 24) % d := by
  have e24 : (H : ℚ) = 24 * ((H / 24 : ℤ) : ℚ) + ((H % 24 : ℤ) : ℚ) := by
    have : H = 24 * (H / 24) + H % 24 := by omega
    exact_mod_cast this
  have m0 : (0 : ℚ) ≤ ((H % 24 : ℤ) : ℚ) := by
    have : 0 ≤ H % 24 := by omega
    exact_mod_cast this
  have m1 : ((H % 24 : ℤ) : ℚ) < 24 := by
    have : H % 24 < 24 := by omega
    exact_mod_cast this
  obtain ⟨f, hf, f0, f1⟩ : ∃ f : ℚ, f = ((H % 24 : ℤ) : ℚ) / 24 ∧ 0 ≤ f ∧ f < 1 :=
    ⟨_, rfl, by positivity, by rw [div_lt_one (by norm_num)]; exact m1⟩
  have e1 : (doy : ℚ) + H / 24 - 1 = ((doy - 1 + H / 24 : ℤ) : ℚ) + f := by
    rw [e24, hf]; push_cast; ring
  generalize hN : doy - 1 + H / 24 = N at *
  have hdq : (0 : ℚ) < d := by exact_mod_cast hd
  have eN : (N : ℚ) = d * ((N / d : ℤ) : ℚ) + ((N % d : ℤ) : ℚ) := by
    have : N = d * (N / d) + N % d := by rw [Int.mul_ediv_add_emod]
    exact_mod_cast this
  have r0 : (0 : ℚ) ≤ ((N % d : ℤ) : ℚ) := by exact_mod_cast Int.emod_nonneg N (by omega)
  have r1 : ((N % d : ℤ) : ℚ) + 1 ≤ d := by
    have : N % d + 1 ≤ d := by have := Int.emod_lt_of_pos N hd; omega
    exact_mod_cast this
  have e2 : ⌊((N : ℚ) + f) / d⌋ = N / d := by
    rw [Int.floor_eq_iff]
    constructor
    · rw [le_div_iff₀ hdq]; linarith
    · rw [div_lt_iff₀ hdq]; linarith
  rw [e1]
  refine ⟨e2, ?_⟩
  rw [pyMod, e2]
  have e3 : (1 : ℚ) + ((N : ℚ) + f - d * ((N / d : ℤ) : ℚ)) = ((1 + N % d : ℤ) : ℚ) + f := by
    push_cast; linarith
  rw [e3, pyInt_nonneg (by push_cast; linarith), floor_add_frac _ f0 f1]

theorem fmt13_err (x : ℚ) : |fmt13 x - x| ≤ 1 / (2 * 10 ^ 13) := by
  have h := pyRound_err (x * 10 ^ 13)
  rw [abs_le] at h ⊢
  unfold fmt13
  constructor
  · rw [neg_le_sub_iff_le_add]
    have : x - 1 / (2 * 10 ^ 13) ≤ (pyRound (x * 10 ^ 13) : ℚ) / 10 ^ 13 := by
      rw [le_div_iff₀ (by positivity)]; linarith
    linarith
  · have : (pyRound (x * 10 ^ 13) : ℚ) / 10 ^ 13 ≤ x + 1 / (2 * 10 ^ 13) := by
      rw [div_le_iff₀ (by positivity)]; linarith
    linarith

/-- **C74** (partial) For every day of a year and every time, even one that lies after the end of the day or of the year: the
text given to SPICE denotes the moment `spm` seconds after the midnight at the beginning of that day, up to half a unit of the
thirteenth decimal; the day, hour and minute are valid, and the seconds as well unless the time lies less than that before a
full minute.
Missing: that last case, see `C74_minute_false`; century years (2100, …) that are not leap years, see `C74_century_false`. -/
theorem C74_utc_partial (spm : ℚ) (doy year : Int) (hs : 0 ≤ spm) (hd : 1 ≤ doy) (hd' : doy ≤ yearLen year)
    (hc : year % 100 ≠ 0 ∨ year % 400 = 0) (he : (doy - 1) * 86400 + spm < (yearLen year + 365) * 86400) :
    let u := spmToUtc spm doy year
    |instant u - (midnight year doy + spm)| ≤ 1 / (2 * 10 ^ 13) ∧
    ((∀ m : ℤ, ¬ (60 * (m : ℚ) - 1 / (2 * 10 ^ 13) ≤ spm ∧ spm < 60 * m)) → ValidUtc u) := by
  obtain ⟨H, M, eH, eM, H0, M0, M1, S0, S1⟩ := clock_split hs
  have ed : (if year % 4 = 0 then 366 else 365 : ℚ) = (yearLen year : ℤ) := by
    unfold yearLen
    by_cases h4 : year % 4 = 0
    · have l : isLeap year := ⟨h4, hc⟩
      rw [if_pos h4, if_pos l]; norm_num
    · have l : ¬ isLeap year := fun h => h4 h.1
      rw [if_neg h4, if_neg l]; norm_num
  have hlen : yearLen year = 366 ∨ yearLen year = 365 := by
    unfold yearLen; split <;> simp
  obtain ⟨c1, c2⟩ := calendar_split doy H (yearLen year) (by omega) (by omega)
  have eu : spmToUtc spm doy year =
      { year := year + (doy - 1 + H / 24) / yearLen year
        doy := 1 + (doy - 1 + H / 24) % yearLen year
        hour := H % 24
        minute := M
        second := fmt13 (spm - H * 3600 - M * 60) } := by
    unfold spmToUtc
    simp only [ed, eH, eM, c1, c2]
  have hN : doy - 1 + H / 24 < yearLen year + 365 := by
    have : (H : ℚ) * 3600 ≤ spm := by
      have : (0 : ℚ) ≤ M := by exact_mod_cast M0
      linarith
    have h2 : ((doy : ℚ) - 1) * 86400 + H * 3600 < (yearLen year + 365) * 86400 := by linarith
    have h3 : (doy - 1) * 86400 + H * 3600 < (yearLen year + 365) * 86400 := by exact_mod_cast h2
    omega
  generalize hNN : doy - 1 + H / 24 = N at *
  have hN0 : 0 ≤ N := by omega
  have ey : daysBefore (year + N / yearLen year) + N % yearLen year = daysBefore year + N := by
    by_cases k : N < yearLen year
    · have a1 : N / yearLen year = 0 := Int.ediv_eq_zero_of_lt hN0 k
      have a2 : N % yearLen year = N := Int.emod_eq_of_lt hN0 k
      rw [a1, a2, add_zero]
    · have a1 : N / yearLen year = 1 := by rcases hlen with h | h <;> rw [h] at k hN ⊢ <;> omega
      have a2 : N % yearLen year = N - yearLen year := by rcases hlen with h | h <;> rw [h] at k hN ⊢ <;> omega
      rw [a1, a2, daysBefore_succ]; ring
  have ehour : H = 24 * (H / 24) + H % 24 := by omega
  have ehourq : (H : ℚ) = 24 * ((H / 24 : ℤ) : ℚ) + ((H % 24 : ℤ) : ℚ) := by exact_mod_cast ehour
  have eNq : ((doy : ℚ) - 1) + ((H / 24 : ℤ) : ℚ) = N := by exact_mod_cast hNN
  have eyq : ((daysBefore (year + N / yearLen year) : ℤ) : ℚ) + ((N % yearLen year : ℤ) : ℚ) = daysBefore year + N := by
    exact_mod_cast ey
  refine ⟨?_, ?_⟩
  · rw [eu]
    have : instant (Utc.mk (year + N / yearLen year) (1 + N % yearLen year) (H % 24) M
        (fmt13 (spm - H * 3600 - M * 60))) - (midnight year doy + spm) =
        fmt13 (spm - H * 3600 - M * 60) - (spm - H * 3600 - M * 60) := by
      unfold instant midnight
      simp only
      have e5 : ((1 + N % yearLen year : ℤ) : ℚ) - 1 = ((N % yearLen year : ℤ) : ℚ) := by push_cast; ring
      rw [e5]
      generalize fmt13 (spm - H * 3600 - M * 60) = F
      linarith
    rw [this]
    exact fmt13_err _
  · intro hm
    rw [eu]
    have f0 : 0 ≤ fmt13 (spm - H * 3600 - M * 60) := by
      unfold fmt13
      have : 0 ≤ pyRound ((spm - H * 3600 - M * 60) * 10 ^ 13) := pyRound_nonneg (by positivity)
      have : (0 : ℚ) ≤ (pyRound ((spm - H * 3600 - M * 60) * 10 ^ 13) : ℚ) := by exact_mod_cast this
      positivity
    have f1 : fmt13 (spm - H * 3600 - M * 60) < 60 := by
      have hmm := hm (60 * H + M + 1)
      have e := (abs_le.mp (fmt13_err (spm - H * 3600 - M * 60))).2
      by_contra hcon
      apply hmm
      push_cast
      constructor <;> linarith
    refine ⟨?_, ?_, ?_, ?_, M0, M1, f0, f1⟩
    · have := Int.emod_nonneg N (b := yearLen year) (by omega)
      simp only; omega
    · simp only
      by_cases k : N < yearLen year
      · rw [Int.ediv_eq_zero_of_lt hN0 k, Int.emod_eq_of_lt hN0 k, add_zero]; omega
      · have a1 : N / yearLen year = 1 := by rcases hlen with h | h <;> rw [h] at k hN ⊢ <;> omega
        have a2 : N % yearLen year = N - yearLen year := by rcases hlen with h | h <;> rw [h] at k hN ⊢ <;> omega
        rw [a1, a2]
        have : 365 ≤ yearLen (year + 1) := by unfold yearLen; split <;> omega
        omega
    · simp only; omega
    · simp only; omega

/-- Non-trivial instance: 86400 s + 1.5 s after the last midnight of the leap year 2016. -/
example : spmToUtc (86401 + 1 / 2) 366 2016 = ⟨2017, 1, 0, 0, 3 / 2⟩ ∧
    ValidUtc (spmToUtc (86401 + 1 / 2) 366 2016) := by
  refine ⟨by decide +kernel, (C74_utc_partial _ _ _ (by norm_num) (by norm_num) (by decide) (by decide) ?_).2 ?_⟩
  · have : yearLen 2016 = 366 := by decide
    rw [this]; norm_num
  · intro m ⟨h1, h2⟩
    have a : (1440 : ℚ) < m := by linarith
    have b : (m : ℚ) < 1441 := by linarith
    have a' : (1440 : ℤ) < m := by exact_mod_cast a
    have b' : m < (1441 : ℤ) := by exact_mod_cast b
    omega

/-- **C74** is false less than 5·10⁻¹⁴ s before a full minute (several doubles lie there): the text says 60 seconds, which no
minute has. -/
theorem C74_minute_false (m : ℤ) (hm : 1 ≤ m) (spm : ℚ) (h1 : 60 * (m : ℚ) - 1 / (2 * 10 ^ 13) < spm)
    (h2 : spm < 60 * m) (doy year : Int) :
    (spmToUtc spm doy year).second = 60 ∧ ¬ ValidUtc (spmToUtc spm doy year) := by
  have hmq : (1 : ℚ) ≤ m := by exact_mod_cast hm
  have h0 : 0 ≤ spm := by linarith
  obtain ⟨H, M, eH, eM, H0, M0, M1, S0, S1⟩ := clock_split h0
  have es : (spmToUtc spm doy year).second = fmt13 (spm - H * 3600 - M * 60) := by
    unfold spmToUtc
    simp only [eH, eM]
  have e60 : fmt13 (spm - H * 3600 - M * 60) = 60 := by
    have hk : m = 60 * H + M + 1 := by
      have a : ((60 * H + M : ℤ) : ℚ) < m := by push_cast; linarith
      have b : (m : ℚ) < ((60 * H + M + 2 : ℤ) : ℚ) := by push_cast; linarith
      have a' : 60 * H + M < m := by exact_mod_cast a
      have b' : m < 60 * H + M + 2 := by exact_mod_cast b
      omega
    unfold fmt13
    have : pyRound ((spm - H * 3600 - M * 60) * 10 ^ 13) = 600000000000000 := by
      apply pyRound_near
      rw [hk] at h1 h2
      push_cast at h1 h2 ⊢
      rw [abs_lt]
      constructor <;> linarith
    rw [this]; norm_num
  refine ⟨by rw [es, e60], fun hv => ?_⟩
  have := hv.2.2.2.2.2.2.2
  rw [es, e60] at this
  exact absurd this (lt_irrefl _)

/-- Half an ulp before 00:01:00 there is such a double. -/
example : spmToUtc (60 - 1 / 2 ^ 47) 123 2005 = ⟨2005, 123, 0, 0, 60⟩ := by decide +kernel

/-- **C74** is false for century years that are not leap years: they are given 366 days. -/
theorem C74_century_false : spmToUtc 86400 365 2100 = ⟨2100, 366, 0, 0, 0⟩ ∧
    ¬ ValidUtc (spmToUtc 86400 365 2100) := by
  have e : spmToUtc 86400 365 2100 = ⟨2100, 366, 0, 0, 0⟩ := by decide +kernel
  refine ⟨e, fun hv => ?_⟩
  rw [e] at hv
  have h := hv.2.1
  have : yearLen 2100 = 365 := by decide
  simp only [this] at h
  omega

/-- **C74** is false without the keyword `kernels`, although it is optional: a `NameError` for every input. -/
theorem C74_kernels_false (utc2et : Utc → ℚ) (doy year : Int) (hd : doy ≠ 0) (hy : year ≠ 0) (spm : List ℚ) :
    spmToEt utc2et false doy year spm = .error .name := by
  rw [spmToEt, if_neg hd, if_neg hy]
  rfl

/-- With kernels, each time is converted separately and in order. -/
theorem C74_array (utc2et : Utc → ℚ) (doy year : Int) (hd : doy ≠ 0) (hy : year ≠ 0) (spm : List ℚ) :
    ∃ r, spmToEt utc2et true doy year spm = .ok r ∧ r.length = spm.length ∧
      ∀ i (h : i < spm.length), r.getD i 0 = utc2et (spmToUtc spm[i] doy year) := by
  refine ⟨_, by rw [spmToEt, if_neg hd, if_neg hy]; rfl, by simp, fun i h => ?_⟩
  simp [List.getD_eq_getElem?_getD, h]

example : ∃ r, spmToEt instant true 1 2005 [0, 1] = .ok r ∧ r.length = 2 := by
  obtain ⟨r, e, h, -⟩ := C74_array instant 1 2005 (by decide) (by decide) [0, 1]
  exact ⟨r, e, h⟩

end Verif.Rsr
