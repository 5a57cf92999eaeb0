import Verif.Model.ResName
import Verif.Props.C114
import Verif.Props.C115
import Verif.Props.C116

/-!
# C126 The resolutions in the names of files
-/
namespace Verif.Out
open Verif.Rsr

namespace Spec

/-- `s` is the number `n` with leading zeros, at least `w` digits. -/
def Padded (w n : Nat) (s : List Char) : Prop :=
  s.all isDigit ∧ value s = n ∧ w ≤ s.length ∧ (w < s.length → 10 ^ w ≤ n)

/-- The standard resolutions of DLP files, in metres. -/
def standard : List Nat := [10, 20, 40, 50, 100, 200, 500]

end Spec
open Verif.Out.Spec

theorem value_zeros (z : Nat) (s : List Char) : value (List.replicate z '0' ++ s) = value s := by
  rw [value_append]
  have : value (List.replicate z '0') = 0 := by
    induction z with
    | zero => rfl
    | succ z ih =>
      rw [List.replicate_succ', value_append, ih]
      rfl
  rw [this]
  omega

theorem zfill_padded {w : Nat} (hw : 1 ≤ w) (n : Nat) : Padded w n (zfillInt w n) := by
  obtain ⟨h1, h2, -⟩ := value_decimal n
  have e : zfillInt w n = List.replicate (w - (decimal n).length) '0' ++ decimal n := by
    rw [zfillInt, if_neg (by omega), Int.natAbs_natCast]
  rw [e]
  refine ⟨?_, ?_, ?_, ?_⟩
  · rw [List.all_append, h2, Bool.and_true, List.all_replicate]
    split
    · rfl
    · decide
  · rw [value_zeros, h1]
  · rw [List.length_append, List.length_replicate]
    omega
  · rw [List.length_append, List.length_replicate]
    intro h
    by_contra hc
    have := (Verif.Pds.decimal_length hw (n := n)).2 (by omega)
    omega

theorem pyInt_of {x : ℚ} {n : ℤ} (h0 : 0 ≤ x) (h1 : (n : ℚ) ≤ x) (h2 : x < n + 1) : pyInt x = n := by
  rw [pyInt, if_pos h0, Int.floor_eq_iff]
  exact ⟨h1, h2⟩

/-- Multiplying the double next to `n` thousandths by 1000: within a hundredth of `n`. -/
theorem thousand_near {rnd : ℚ → ℚ} (hr : Ieee rnd) {n : Nat} (h0 : 0 < n) (h1 : n ≤ 10 ^ 9) :
    |rnd (rnd (n / 1000) * 1000) - n| ≤ 1 / 100 := by
  have hn : (1 : ℚ) ≤ n := by exact_mod_cast h0
  have hn' : (n : ℚ) ≤ 10 ^ 9 := by exact_mod_cast h1
  have ha : |(n : ℚ) / 1000| = n / 1000 := abs_of_pos (by positivity)
  have e1 := hr.rel (n / 1000) (by rw [ha, div_le_div_iff₀ (by norm_num) (by norm_num)]; linarith [show (1000 : ℚ) ≤ 2 ^ 200 by norm_num])
    (by rw [ha, div_le_iff₀ (by norm_num)]; linarith [show (10 : ℚ) ^ 9 ≤ 2 ^ 200 * 1000 by norm_num])
  rw [ha] at e1
  have e1' : (n : ℚ) / 1000 / 2 ^ 53 ≤ 1 / 10 ^ 9 := by
    rw [div_div, div_le_div_iff₀ (by norm_num) (by norm_num)]
    linarith [show (10 : ℚ) ^ 9 * 10 ^ 9 ≤ 1 * (1000 * 2 ^ 53) by norm_num]
  rw [abs_le] at e1
  set y := rnd ((n : ℚ) / 1000) with hy
  have hy1 : (n : ℚ) - 1 / 10 ^ 6 ≤ y * 1000 := by linarith [e1.1]
  have hy2 : y * 1000 ≤ n + 1 / 10 ^ 6 := by linarith [e1.2]
  have hb : |y * 1000| = y * 1000 := abs_of_pos (by linarith)
  have e2 := hr.rel (y * 1000) (by rw [hb]; linarith [show (1 : ℚ) / 2 ^ 200 ≤ 1 - 1 / 10 ^ 6 by norm_num])
    (by rw [hb]; linarith [show (10 : ℚ) ^ 9 + 1 / 10 ^ 6 ≤ 2 ^ 200 by norm_num])
  rw [hb] at e2
  have e2' : y * 1000 / 2 ^ 53 ≤ 1 / 10 ^ 6 := by
    rw [div_le_div_iff₀ (by norm_num) (by norm_num)]
    linarith [show ((10 : ℚ) ^ 9 + 1 / 10 ^ 6) * 10 ^ 6 ≤ 1 * 2 ^ 53 by norm_num]
  rw [abs_le] at e2 ⊢
  constructor <;> linarith [e2.1, e2.2]

/-- **C126**, any rounding: the number in the name of a TAU file is the resolution in metres or one less, with at least five
digits. -/
theorem C126_tau_near {rnd : ℚ → ℚ} (hr : Ieee rnd) {n : Nat} (h0 : 0 < n) (h1 : n ≤ 10 ^ 9) (add : List Char) :
    ∃ m s, (m = n ∨ m + 1 = n) ∧ Padded 5 m s ∧ tauType rnd (rnd (n / 1000)) add = "TAU_".toList ++ s ++ 'M' :: add := by
  have h := abs_le.1 (thousand_near hr h0 h1)
  have hn : (1 : ℚ) ≤ n := by exact_mod_cast h0
  rw [tauType, tauNumber]
  by_cases hc : (n : ℚ) ≤ rnd (rnd (n / 1000) * 1000)
  · refine ⟨n, _, .inl rfl, zfill_padded (by norm_num) n, ?_⟩
    rw [pyInt_of (n := n) (by linarith [h.1]) (by push_cast; exact hc) (by push_cast; linarith [h.2])]
  · refine ⟨n - 1, _, .inr (by omega), zfill_padded (by norm_num) (n - 1), ?_⟩
    have e : (((n - 1 : ℕ) : ℤ) : ℚ) = n - 1 := by push_cast [h0]; ring
    rw [pyInt_of (n := ((n - 1 : ℕ) : ℤ)) (by linarith [h.1]) (by rw [e]; linarith [h.1]) (by rw [e]; linarith [not_le.1 hc])]

/-- **C126**: doubles name all resolutions up to a kilometre exactly. -/
theorem C126_tau_partial {n : Nat} (h : n ≤ 1000) (add : List Char) :
    ∃ s, Padded 5 n s ∧ tauType rnd53 (rnd53 (n / 1000)) add = "TAU_".toList ++ s ++ 'M' :: add := by
  have key : ∀ n < 1001, tauNumber rnd53 (rnd53 ((n : ℕ) / 1000)) = n := by decide +kernel
  exact ⟨_, zfill_padded (by norm_num) n, by rw [tauType, key n (by omega)]⟩

/-- **C126** is false of 1001 m, which is named like 1000 m. -/
theorem C126_tau_false : tauType rnd53 (rnd53 (1001 / 1000)) [] = "TAU_01000M".toList ∧
    tauType rnd53 (rnd53 (1000 / 1000)) [] = "TAU_01000M".toList := by decide +kernel

/-- **C126**: doubles name all samplings of DLP files up to a kilometre exactly, by twice the distance of the samples. -/
theorem C126_dlp_partial {k : Nat} (h : k ≤ 1000) (add : List Char) :
    ∃ s, Padded 4 (2 * k) s ∧ dlpType rnd53 (drKm rnd53 k) add = "DLP_".toList ++ s ++ 'M' :: add := by
  have key : ∀ k < 1001, dlpNumber rnd53 (drKm rnd53 k) = ((2 * k : ℕ) : ℤ) := by decide +kernel
  exact ⟨_, zfill_padded (by norm_num) (2 * k), by rw [dlpType, key k (by omega)]⟩

/-- **C126** is false of samples 1001 m apart: 2001 instead of 2002. -/
theorem C126_dlp_false : dlpType rnd53 (drKm rnd53 1001) [] = "DLP_2001M".toList := by decide +kernel

/-! ### Reading the name -/

theorem after_first {pre rest : List Char} (h : ¬ "DLP_".toList <:+: pre ++ "DLP".toList) :
    afterDlp (pre ++ ("DLP_".toList ++ rest)) = some rest := by
  induction pre with
  | nil => rfl
  | cons c pre ih =>
    have h1 : ¬ "DLP_".toList <:+: pre ++ "DLP".toList := fun hc => h (hc.trans ⟨[c], [], by simp⟩)
    have h2 : "DLP_".toList.isPrefixOf (c :: (pre ++ ("DLP_".toList ++ rest))) = false := by
      rw [Bool.eq_false_iff]
      intro hc
      rw [List.isPrefixOf_iff_prefix] at hc
      apply h
      have e : c :: (pre ++ ("DLP_".toList ++ rest)) = (c :: pre ++ "DLP".toList) ++ ('_' :: rest) := by
        rw [List.cons_append, List.cons_append, List.append_assoc]
        rfl
      rw [e] at hc
      have := List.prefix_of_prefix_length_le hc (List.prefix_append _ _) (by
        rw [List.length_append, List.length_cons]
        show 4 ≤ pre.length + 1 + 3
        omega)
      exact this.isInfix
    rw [List.cons_append, afterDlp, h2]
    exact ih h1

/-- **C126**, reading: if nothing before the type looks like one, the four digits are found again; the smallest resolution is
their value in kilometres over the factor. -/
theorem C126_read_partial (rnd : ℚ → ℚ) {pre s rest : List Char} {n : Nat} (h : ¬ "DLP_".toList <:+: pre ++ "DLP".toList)
    (hs : Padded 4 n s) (hn : n < 10000) {factor : ℚ} (hf : factor ≠ 0) :
    minValid rnd (pre ++ ("DLP_".toList ++ (s ++ 'M' :: rest))) factor = .ok (rnd (rnd (n / 1000) / factor)) := by
  obtain ⟨h1, h2, h3, h4⟩ := hs
  have hl : s.length = 4 := by
    by_contra hc
    have := h4 (by omega)
    omega
  have ht : (s ++ 'M' :: rest).take 4 = s := by rw [← hl, List.take_left']; rfl
  have hne : s ≠ [] := by
    intro hc
    rw [hc] at hl
    cases hl
  simp only [minValid, after_first h, ht, pyIntDigits, if_pos (And.intro hne h1), h2, bind, Except.bind, if_neg hf]

/-- **C126** is false of five digits: 10 km is read as 1 km. -/
theorem C126_read_false : dlpType rnd53 (drKm rnd53 5000) "_20260130_0001.TAB".toList = "DLP_10000M_20260130_0001.TAB".toList ∧
    minValid rnd53 "DLP_10000M_20260130_0001.TAB".toList 1 = .ok 1 := by
  constructor <;> decide +kernel

/-- A name without a resolution is an error. -/
theorem C126_missing (rnd : ℚ → ℚ) {file : List Char} (h : ¬ "DLP_".toList <:+: file) (factor : ℚ) :
    minValid rnd file factor = .error .value := by
  have : afterDlp file = none := by
    induction file with
    | nil => rfl
    | cons c cs ih =>
      have h1 : ¬ "DLP_".toList <:+: cs := fun hc => h (hc.trans ⟨[c], [], by simp⟩)
      have h2 : "DLP_".toList.isPrefixOf (c :: cs) = false := by
        rw [Bool.eq_false_iff]
        intro hc
        rw [List.isPrefixOf_iff_prefix] at hc
        exact h hc.isInfix
      rw [afterDlp, h2]
      exact ih h1
  rw [minValid, this]

/-- **C126**, the check, in exact arithmetic: a resolution is accepted exactly if the resolution of the DLP file is fine enough for
it, that is, at most the resolution times the factor. -/
theorem C126_valid_partial {pre s rest : List Char} {n : Nat} (h : ¬ "DLP_".toList <:+: pre ++ "DLP".toList)
    (hs : Padded 4 n s) (hn : n < 10000) {factor : ℚ} (hf : 0 < factor) (res : ℚ) :
    ∃ b, resValid id (pre ++ ("DLP_".toList ++ (s ++ 'M' :: rest))) factor res = .ok b ∧ (b = true ↔ (n : ℚ) / 1000 ≤ res * factor) := by
  refine ⟨_, by simp only [resValid, C126_read_partial id h hs hn hf.ne', bind, Except.bind]; rfl, ?_⟩
  simp only [id, Bool.not_eq_true', decide_eq_false_iff_not, not_lt]
  rw [div_le_iff₀ hf]

/-- **C126** is false with doubles: 0.1 km from a file of 70 m with a factor of 0.7 is refused. -/
theorem C126_valid_false : resValid rnd53 "DLP_0070M_20260130_0001.TAB".toList (rnd53 (7 / 10)) (rnd53 (1 / 10)) = .ok false ∧
    resValid id "DLP_0070M_20260130_0001.TAB".toList (7 / 10) (1 / 10) = .ok true := by
  constructor <;> decide +kernel

/-! ### The choice of a DLP file -/

/-- **C126**, the choice: from 10 m on the resolution looked for is the coarsest of the standard ones that is fine enough. -/
theorem C126_choice_partial {m : ℚ} (h : 10 ≤ m) : dlpChoice m ∈ standard ∧ (dlpChoice m : ℚ) ≤ m ∧
    ∀ n ∈ standard, (n : ℚ) ≤ m → n ≤ dlpChoice m := by
  have hmem : ∀ {c : Nat}, (∀ n ∈ standard, ¬ n ≤ c → ¬ (n : ℚ) ≤ m) → ∀ n ∈ standard, (n : ℚ) ≤ m → n ≤ c :=
    fun hc n hn hm => by
      by_contra h'
      exact hc n hn h' hm
  unfold dlpChoice
  split_ifs with h1 h2 h3 h4 h5 h6
  all_goals
    refine ⟨by decide, by push_cast; linarith, hmem ?_⟩
    intro n hn hlt
    simp only [standard, List.mem_cons, List.not_mem_nil, or_false] at hn
    rcases hn with rfl | rfl | rfl | rfl | rfl | rfl | rfl <;> first | (exfalso; exact hlt (by decide)) | (push_cast; linarith)

/-- **C126** is false below 10 m: a file of 10 m is taken. -/
theorem C126_choice_false : dlpChoice (minDlpRes rnd53 (rnd53 (1 / 100)) (rnd53 (3 / 4))) = 10 ∧
    minDlpRes rnd53 (rnd53 (1 / 100)) (rnd53 (3 / 4)) < 8 := by
  constructor <;> decide +kernel

/-- A file of the chosen resolution is found by the pattern. -/
theorem C126_found {n : Nat} {s : List Char} (hs : s = zfillInt 4 n) (pre rest : List Char) :
    Found n (pre ++ "DLP_".toList ++ s ++ "M_".toList ++ rest) := by
  refine ⟨pre, List.replicate (4 - (decimal n).length) '0', rest, ?_⟩
  rw [hs, zfillInt, if_neg (by omega), Int.natAbs_natCast]
  simp only [List.append_assoc]

/-- **C126** is false of the pattern: it finds files of coarser resolution too, here 110 m for 10 m. -/
theorem C126_found_false : Found 10 "RSS_2005_123_X43_E_DLP_0110M_20260130_0001.TAB".toList ∧
    Found 20 "RSS_2005_123_X43_E_DLP_0120M_20260130_0001.TAB".toList :=
  ⟨⟨"RSS_2005_123_X43_E_".toList, "01".toList, "20260130_0001.TAB".toList, by decide +kernel⟩,
   ⟨"RSS_2005_123_X43_E_".toList, "01".toList, "20260130_0001.TAB".toList, by decide +kernel⟩⟩

/-! ### Examples -/

example : tauType rnd53 (rnd53 (1 / 2)) [] = "TAU_00500M".toList ∧ dlpType rnd53 (drKm rnd53 250) [] = "DLP_0500M".toList := by
  decide +kernel

example : ∃ m s, (m = 1001 ∨ m + 1 = 1001) ∧ Padded 5 m s ∧
    tauType rnd53 (rnd53 ((1001 : ℕ) / 1000)) [] = "TAU_".toList ++ s ++ ['M'] :=
  C126_tau_near rnd53_ieee (by norm_num) (by norm_num) []

example : minValid rnd53 ("RSS_2005_123_X43_E_".toList ++ ("DLP_".toList ++ (zfillInt 4 (500 : ℕ) ++ 'M' :: "_1.TAB".toList))) (rnd53 (3 / 4)) =
    .ok (rnd53 (rnd53 ((500 : ℕ) / 1000) / rnd53 (3 / 4))) :=
  C126_read_partial rnd53 (by decide +kernel) (zfill_padded (by norm_num) 500) (by norm_num) (by decide +kernel)

example : resValid id ("X_".toList ++ ("DLP_".toList ++ ("0500".toList ++ 'M' :: []))) (3 / 4) 1 = .ok true ∧
    resValid id ("X_".toList ++ ("DLP_".toList ++ ("0500".toList ++ 'M' :: []))) (3 / 4) (1 / 2) = .ok false := by
  constructor <;> decide +kernel

example : minValid rnd53 "RSS_2005_123_X43_E_CAL.TAB".toList 1 = .error .value := C126_missing rnd53 (by decide +kernel) 1

example : dlpChoice (minDlpRes rnd53 1 (rnd53 (3 / 4))) = 500 ∧ dlpChoice (minDlpRes rnd53 (rnd53 (1 / 4)) (rnd53 (3 / 4))) = 100 := by
  constructor <;> decide +kernel

end Verif.Out
