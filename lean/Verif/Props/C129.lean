import Verif.Props.C128
import Verif.Props.C123

/-!
# C129 Radius corrections written into TAU files
-/
namespace Verif.Out
open Verif.Rsr Verif.Pds

namespace Spec

/-- The row with other corrections. -/
def corrected (row : String → ℚ) (pole timing : ℚ) : String → ℚ := fun name =>
  if name = "rho_corr_pole_km" then pole else if name = "rho_corr_timing_km" then timing else row name

/-- A number that fits in nine characters with six decimals. -/
def Nine (x : ℚ) : Prop := -(10 - 1 / 2 / 10 ^ 6 : ℚ) < x ∧ x < 100 - 1 / 2 / 10 ^ 6

/-- A radius that fits in its column. -/
def Radius (x : ℚ) : Prop := -(10 ^ 6 - 1 / 2 / 10 ^ 6 : ℚ) < x ∧ x < 10 ^ 7 - 1 / 2 / 10 ^ 6

end Spec
open Verif.Out.Spec

theorem nine_length {x : ℚ} (h : Nine x) : (pad 9 (fixed 6 x)).length = 9 := by
  rw [C115_fits (by norm_num)]
  norm_num [Nine] at h ⊢
  exact h

theorem pad_ten {x : ℚ} (h : Nine x) : pad 10 (fixed 6 x) = ' ' :: pad 9 (fixed 6 x) := by
  have h1 := nine_length h
  have h2 : (fixed 6 x).length ≤ 9 := by
    simp only [pad, List.length_append, List.length_replicate] at h1
    omega
  rw [pad, pad, show 10 - (fixed 6 x).length = (9 - (fixed 6 x).length) + 1 by omega, List.replicate_succ]
  rfl

theorem radius_length {x : ℚ} (h : Radius x) : (pad 14 (fixed 6 x)).length = 14 := by
  rw [C115_fits (by norm_num)]
  norm_num [Radius] at h ⊢
  exact h

/-- The line of a TAU file without its end: three columns and the others. -/
def tauRest (row : String → ℚ) : List Char :=
  pad 12 (fixed 6 (row "phi_rl_deg")) ++ ',' :: (pad 12 (fixed 6 (row "phi_ora_deg")) ++ ',' :: (pad 14 (sciForm 6 (row "p_norm")) ++
    ',' :: (pad 14 (sciForm 6 (row "tau_norm")) ++ ',' :: (pad 12 (fixed 6 (row "phase_deg")) ++
    ',' :: (pad 14 (sciForm 6 (row "raw_tau_threshold")) ++ ',' :: (pad 14 (fixed 6 (row "t_oet_spm")) ++ ',' :: (pad 14 (fixed 6 (row "t_ret_spm")) ++
    ',' :: (pad 14 (fixed 6 (row "t_set_spm")) ++ ',' :: pad 12 (fixed 6 (row "B_deg"))))))))))

/-- The line without its end. -/
def tauLine (row : String → ℚ) : List Char :=
  pad 14 (fixed 6 (row "rho_km")) ++ ',' :: (pad 10 (fixed 6 (row "rho_corr_pole_km")) ++ ',' :: (pad 10 (fixed 6 (row "rho_corr_timing_km")) ++
    ',' :: tauRest row))

theorem line_tau (str : ℚ → List Char) (row : String → ℚ) : line sciForm str .tau row = .ok (tauLine row ++ ['\r', '\n']) := by
  rw [line_texts (by decide)]
  simp only [texts, cols, Pds.written, List.map_cons, List.map_nil, List.zipWith_cons_cons, List.zipWith_nil_right, rowOf, text, if_true, if_false,
    Bool.false_eq_true, tauLine, tauRest, List.append_assoc, List.cons_append]

theorem file_tau (str : ℚ → List Char) (rows : List (String → ℚ)) :
    fileText sciForm str .tau rows = .ok (ended ['\r', '\n'] (rows.map tauLine)) := by
  rw [fileText, mapM_pure (g := fun row => tauLine row ++ ['\r', '\n']) fun row _ => line_tau str row]
  simp only [bind, Except.bind, pure, Except.pure, ended, List.flatMap_def, List.map_map]
  rfl

/-- No end of a line. -/
def Clean (s : List Char) : Prop := ∀ c ∈ s, c ≠ '\r' ∧ c ≠ '\n'

theorem Clean.append {a b : List Char} (ha : Clean a) (hb : Clean b) : Clean (a ++ b) := fun c h =>
  (List.mem_append.1 h).elim (ha c) (hb c)

theorem Clean.cons {a : Char} {b : List Char} (ha : a ≠ '\r' ∧ a ≠ '\n') (hb : Clean b) : Clean (a :: b) := fun c h => by
  rcases List.mem_cons.1 h with rfl | h
  · exact ha
  · exact hb c h

theorem clean_digits {s : List Char} (h : s.all isDigit) : Clean s := fun c hc => by
  have := List.all_eq_true.1 h c hc
  constructor <;> rintro rfl <;> exact absurd this (by decide)

theorem clean_sign (p : Prop) [Decidable p] : Clean (if p then ['-'] else []) := by
  split
  · exact Clean.cons (by decide) (by intro c h; cases h)
  · intro c h; cases h

theorem clean_fixed (p : Nat) (x : ℚ) : Clean (fixed p x) := by
  rw [fixed]
  exact ((clean_sign _).append (clean_digits (value_decimal _).2.1)).append (Clean.cons (by decide) (clean_digits (digits_spec _ _).2))

theorem clean_ite (p : Prop) [Decidable p] {a b : Char} (ha : a ≠ '\r' ∧ a ≠ '\n') (hb : b ≠ '\r' ∧ b ≠ '\n') :
    (if p then a else b) ≠ '\r' ∧ (if p then a else b) ≠ '\n' := by
  split <;> assumption

theorem clean_zero (p : Prop) [Decidable p] : Clean (if p then ['0'] else []) := by
  split
  · exact Clean.cons (by decide) (by intro c h; cases h)
  · intro c h; cases h

theorem clean_sci (p : Nat) (x : ℚ) : Clean (sciForm p x) := by
  rw [sciForm]
  exact (((clean_sign _).append (clean_digits (value_decimal _).2.1)).append (Clean.cons (by decide) (clean_digits (digits_spec _ _).2))).append
    (Clean.cons (by decide) (Clean.cons (clean_ite _ (by decide) (by decide)) (Clean.append (clean_zero _) (clean_digits (value_decimal _).2.1))))

theorem clean_pad (w : Nat) {s : List Char} (h : Clean s) : Clean (pad w s) := by
  refine Clean.append ?_ h
  intro c hc
  rw [List.mem_replicate] at hc
  rw [hc.2]
  decide

theorem clean_tau (row : String → ℚ) : Clean (tauLine row) := by
  have f := fun w name => clean_pad w (clean_fixed 6 (row name))
  have s := fun w name => clean_pad w (clean_sci 6 (row name))
  have comma : (',' : Char) ≠ '\r' ∧ (',' : Char) ≠ '\n' := by decide
  exact (f _ _).append (.cons comma ((f _ _).append (.cons comma ((f _ _).append (.cons comma ((f _ _).append (.cons comma ((f _ _).append
    (.cons comma ((s _ _).append (.cons comma ((s _ _).append (.cons comma ((f _ _).append (.cons comma ((s _ _).append (.cons comma
    ((f _ _).append (.cons comma ((f _ _).append (.cons comma ((f _ _).append (.cons comma (f _ _))))))))))))))))))))))))

/-! ### One line -/

theorem setSlice_at {a b c s : List Char} {i j : Nat} (hi : a.length = i) (hj : (a ++ b).length = j) : setSlice i j s (a ++ b ++ c) = a ++ s ++ c := by
  rw [setSlice, ← hj, List.drop_left, List.append_assoc a b c, ← hi, List.take_left]

/-- **C129**, a line: it becomes the one that the writer gives for the new corrections, if the old and the new ones fit in nine characters. -/
theorem C129_line_partial {row : String → ℚ} {pole timing : ℚ} (hr : Radius (row "rho_km")) (h1 : Nine (row "rho_corr_pole_km"))
    (h2 : Nine (row "rho_corr_timing_km")) (h3 : Nine pole) (h4 : Nine timing) :
    updateLine (some pole) (some timing) (tauLine row ++ ['\n']) = tauLine (corrected row pole timing) ++ ['\n'] := by
  have l0 := radius_length hr
  have l1 := nine_length h1
  have l2 := nine_length h2
  have l3 := nine_length h3
  have e0 : tauRest (corrected row pole timing) = tauRest row := rfl
  have e1 : tauLine row ++ ['\n'] = (pad 14 (fixed 6 (row "rho_km")) ++ [',', ' ']) ++ pad 9 (fixed 6 (row "rho_corr_pole_km")) ++
      (',' :: ' ' :: (pad 9 (fixed 6 (row "rho_corr_timing_km")) ++ ',' :: (tauRest row ++ ['\n']))) := by
    rw [tauLine, pad_ten h1, pad_ten h2]
    simp only [List.append_assoc, List.cons_append, List.nil_append]
  have e2 : tauLine (corrected row pole timing) ++ ['\n'] = (pad 14 (fixed 6 (row "rho_km")) ++ [',', ' '] ++ pad 9 (fixed 6 pole) ++ [',', ' ']) ++
      pad 9 (fixed 6 timing) ++ (',' :: (tauRest row ++ ['\n'])) := by
    rw [tauLine, e0, show corrected row pole timing "rho_corr_pole_km" = pole from rfl,
      show corrected row pole timing "rho_corr_timing_km" = timing from rfl, show corrected row pole timing "rho_km" = row "rho_km" from rfl,
      pad_ten h3, pad_ten h4]
    simp only [List.append_assoc, List.cons_append, List.nil_append]
  have e3 : (pad 14 (fixed 6 (row "rho_km")) ++ [',', ' ']) ++ pad 9 (fixed 6 pole) ++
      (',' :: ' ' :: (pad 9 (fixed 6 (row "rho_corr_timing_km")) ++ ',' :: (tauRest row ++ ['\n']))) =
      (pad 14 (fixed 6 (row "rho_km")) ++ [',', ' '] ++ pad 9 (fixed 6 pole) ++ [',', ' ']) ++ pad 9 (fixed 6 (row "rho_corr_timing_km")) ++
        (',' :: (tauRest row ++ ['\n'])) := by
    simp only [List.append_assoc, List.cons_append, List.nil_append]
  simp only [updateLine]
  rw [e1, setSlice_at (by simp [l0]) (by simp [l0, l1]), e3, setSlice_at (by simp [l0, l3]) (by simp [l0, l3, l2]), e2]

/-! ### The file -/

/-- **C129**, the file: it becomes the one that the writer gives for the corrected rows. -/
theorem C129_file_partial (str : ℚ → List Char) {rows : List (String → ℚ)} {s : List Char} (hs : fileText sciForm str .tau rows = .ok s)
    {old : List (ℚ × ℚ)} {pole timing : List ℚ} {onlyIfZero : Bool} (hz : onlyIfZero = true → ∀ p ∈ old, p = (0, 0))
    (hp : pole.length = rows.length) (ht : timing.length = rows.length)
    (hrow : ∀ row ∈ rows, Radius (row "rho_km") ∧ Nine (row "rho_corr_pole_km") ∧ Nine (row "rho_corr_timing_km"))
    (hn : ∀ x ∈ pole ++ timing, Nine x) :
    ∃ s', updateTau s old (some pole) (some timing) onlyIfZero = .written s' ∧
      fileText sciForm str .tau (rows.mapIdx fun i row => corrected row (pole.getD i 0) (timing.getD i 0)) = .ok s' := by
  rw [file_tau] at hs
  cases hs
  have hread : readlines (universal (ended ['\r', '\n'] (rows.map tauLine))) = (rows.map tauLine).map (· ++ ['\n']) := by
    rw [universal_file, readlines_file]
    · intro b hb c hc
      obtain ⟨row, -, rfl⟩ := List.mem_map.1 hb
      exact (clean_tau row c hc).2
    · intro b hb c hc
      obtain ⟨row, -, rfl⟩ := List.mem_map.1 hb
      exact (clean_tau row c hc).1
  have hlines : ((rows.map tauLine).map (· ++ ['\n'])).mapIdx (fun i l => updateLine (some (pole.getD i 0)) (some (timing.getD i 0)) l) =
      (((rows.mapIdx fun i row => corrected row (pole.getD i 0) (timing.getD i 0))).map tauLine).map (· ++ ['\n']) := by
    apply List.ext_getElem
    · simp
    · intro i h1 h2
      simp only [List.length_mapIdx, List.length_map] at h1
      simp only [List.getElem_mapIdx, List.getElem_map]
      obtain ⟨a, b, c⟩ := hrow rows[i] (List.getElem_mem _)
      refine C129_line_partial a b c (hn _ ?_) (hn _ ?_)
      · rw [List.getD_eq_getElem?_getD, List.getElem?_eq_getElem (by omega)]
        exact List.mem_append_left _ (List.getElem_mem _)
      · rw [List.getD_eq_getElem?_getD, List.getElem?_eq_getElem (by omega)]
        exact List.mem_append_right _ (List.getElem_mem _)
  have hc : (onlyIfZero && old.any (fun p => decide (p.1 ≠ 0) || decide (p.2 ≠ 0))) = false := by
    cases onlyIfZero
    · rfl
    · rw [Bool.true_and, List.any_eq_false]
      intro p h
      rw [hz rfl p h]
      decide
  refine ⟨_, ?_, file_tau str _⟩
  simp only [updateTau, hread, hc, Bool.false_eq_true, if_false, Option.any_some, List.length_map, hp, ht, ne_eq, not_true_eq_false, decide_false,
    lt_self_iff_false, Option.isSome_some, Option.isNone_some, Bool.and_false, Option.map_some, hlines]
  rw [← crlf_file]
  · rw [ended, List.flatMap_def]
  · intro b hb c hc
    obtain ⟨row, -, rfl⟩ := List.mem_map.1 hb
    exact (clean_tau row c hc).2

/-- **C129**, corrections that are there stay, unless asked otherwise. -/
theorem C129_kept (s : List Char) {old : List (ℚ × ℚ)} {p : ℚ × ℚ} (hp : p ∈ old) (h : p.1 ≠ 0 ∨ p.2 ≠ 0) (pole timing : Option (List ℚ)) :
    updateTau s old pole timing true = .kept := by
  have : old.any (fun p => decide (p.1 ≠ 0) || decide (p.2 ≠ 0)) = true :=
    List.any_eq_true.2 ⟨p, hp, by simpa [Bool.or_eq_true, decide_eq_true_eq] using h⟩
  simp only [updateTau, this, Bool.and_self, if_true]

/-- **C129** is false of the trajectory alone: it always ends with an UnboundLocalError. -/
theorem C129_trajectory_false (s : List Char) (old : List (ℚ × ℚ)) (timing : List ℚ) : updateTau s old none (some timing) false = .unboundLocal := by
  simp [updateTau]

/-- A row of zeros. -/
def zeroRow : String → ℚ := fun _ => 0

/-- **C129** is false of a correction of -10 km, for which the writer has room: the line has one character more. -/
theorem C129_width_false : (updateLine (some (-10)) (some 0) (tauLine zeroRow ++ ['\n'])).length = (tauLine zeroRow ++ ['\n']).length + 1 ∧
    (tauLine (corrected zeroRow (-10) 0)).length = (tauLine zeroRow).length ∧
    (updateLine (some (-10)) (some 0) (tauLine zeroRow ++ ['\n'])).take 38 = "      0.000000, -10.000000, 0.0000000,".toList := by
  refine ⟨?_, ?_, ?_⟩ <;> decide +kernel

/-- **C129** is false of an old correction of ten characters: its sign stays, and 12.5 km is read as -12.5 km. -/
theorem C129_sign_false : updateLine (some (25 / 2)) (some 0) (tauLine (corrected zeroRow (-21 / 2) 0) ++ ['\n']) =
    tauLine (corrected zeroRow (-25 / 2) 0) ++ ['\n'] := by decide +kernel

/-! ### Examples -/

theorem zeroRow_fits (a b : ℚ) (ha : Nine a) (hb : Nine b) : ∀ row ∈ [corrected zeroRow a b],
    Radius (row "rho_km") ∧ Nine (row "rho_corr_pole_km") ∧ Nine (row "rho_corr_timing_km") := by
  intro row h
  rw [List.mem_singleton.1 h]
  have h0 : corrected zeroRow a b "rho_km" = 0 := rfl
  refine ⟨?_, ha, hb⟩
  rw [h0]
  norm_num [Radius]

example : ∃ s', updateTau (ended ['\r', '\n'] [tauLine (corrected zeroRow 0 0)]) [(0, 0)] (some [1 / 4]) (some [-3 / 2]) true = .written s' ∧
    fileText sciForm (fun _ => []) .tau [corrected (corrected zeroRow 0 0) (1 / 4) (-3 / 2)] = .ok s' :=
  C129_file_partial (fun _ => []) (rows := [corrected zeroRow 0 0]) (file_tau _ _) (by simp) rfl rfl
    (zeroRow_fits 0 0 (by norm_num [Nine]) (by norm_num [Nine])) (by
      intro x hx
      have hx : x = 1 / 4 ∨ x = -3 / 2 := by simpa using hx
      rcases hx with rfl | rfl <;> norm_num [Nine])

example : updateTau (ended ['\r', '\n'] [tauLine (corrected zeroRow 1 0)]) [(1, 0)] (some [2]) (some [2]) true = .kept :=
  C129_kept _ (p := (1, 0)) (by simp) (by norm_num) _ _

end Verif.Out
