import Verif.Model.TabFile
import Verif.Spec.TabFile
import Verif.Props.C115
import Verif.Props.C40
import Verif.Props.C47

/-!
# C123: tables that the Python modules write are read by the C library
-/
namespace Verif.Pds
open Verif.Rsr Verif.Out Verif.Pds.Spec

/-! ### The text of a number -/

/-- A text that reads as `q`, whatever spaces stand in front. -/
structure Reads (s : List Char) (q : ℚ) : Prop where
  field : Verif.Spec.IsField s
  short : s.length ≤ 39
  atof : ∀ {at' : List Char → Dbl} {rnd : ℚ → ℚ}, ReadsNumbers at' rnd → ∀ (k : Nat) (tail : List Char), tail = [] ∨ tail = ['\r'] →
    at' (List.replicate k ' ' ++ s ++ tail) = .fin (rnd q)

theorem digit_clean {c : Char} (h : Digit c) : c ≠ ',' ∧ c ≠ '\n' ∧ c ≠ '\x00' := by
  obtain ⟨h1, -⟩ := h
  refine ⟨?_, ?_, ?_⟩ <;> (rintro rfl; revert h1; decide)

theorem fixed_reads {x : ℚ} (hx : |x| < 10 ^ 30) : ∃ q, Reads (fixed 6 x) q ∧ |q - x| ≤ 1 / 2 / 10 ^ 6 := by
  obtain ⟨k, a, b, e, ha, hb, hd, near⟩ := C115_text 0 x
  have hk : fixed 6 x = List.replicate k ' ' ++ (if x < 0 then ['-'] else []) ++ a ++ '.' :: b := by
    rw [← e, pad, Nat.zero_sub]; rfl
  have hlen : (fixed 6 x).length ≤ 39 := by
    have h39 : (pad 39 (fixed 6 x)).length = 39 := by
      refine (C115_fits (by norm_num) x).mpr ?_
      rw [abs_lt] at hx
      obtain ⟨h1, h2⟩ := hx
      constructor
      · refine lt_trans ?_ h1
        norm_num
      · refine lt_trans h2 ?_
        norm_num
    simp only [pad, List.length_append, List.length_replicate] at h39
    omega
  refine ⟨(if x < 0 then -1 else 1) * (number (a ++ b) / 10 ^ 6), ⟨⟨?_, ?_⟩, hlen, ?_⟩, ?_⟩
  · rw [hk]; simp
  · intro c hc
    rw [hk] at hc
    simp only [List.mem_append, List.mem_cons, List.mem_replicate] at hc
    rcases hc with ((⟨-, rfl⟩ | h) | h) | rfl | h
    · decide
    · by_cases h0 : x < 0
      · rw [if_pos h0, List.mem_singleton] at h; subst h; decide
      · rw [if_neg h0] at h; exact absurd h (by simp)
    · exact digit_clean (hd c (by simp [h]))
    · decide
    · exact digit_clean (hd c (by simp [h]))
  · intro at' rnd hat m tail ht
    have := hat.decimal (m + k) (decide (x < 0)) a b tail ha hd ht
    rw [hb] at this
    rw [hk]
    simp only [List.replicate_add, List.append_assoc, decide_eq_true_eq] at this ⊢
    exact this
  · by_cases h0 : x < 0
    · rw [if_pos h0]
      rw [abs_of_neg h0] at near
      rw [abs_le] at near ⊢
      constructor <;> linarith [near.1, near.2]
    · rw [if_neg h0]
      rw [abs_of_nonneg (not_lt.mp h0)] at near
      rwa [one_mul]

/-- The parts of a number with exponent. -/
theorem sci_parts {x : ℚ} (hx : Writable x) : ∃ (m : ℕ) (f : ℤ), sciForm 6 x = (if x < 0 then ['-'] else []) ++ decimal (m / 10 ^ 6) ++
      '.' :: digits 6 (m % 10 ^ 6) ++ 'E' :: (if f < 0 then '-' else '+') :: ((if f.natAbs < 10 then ['0'] else []) ++ decimal f.natAbs) ∧
    m < 10 ^ 7 ∧ f.natAbs < 1000 ∧ |(m : ℚ) / 10 ^ 6 * (10 : ℚ) ^ f - abs x| ≤ |x| / 2 / 10 ^ 6 := by
  by_cases h0 : x = 0
  · subst h0
    refine ⟨0, 0, by decide +kernel, by norm_num, by norm_num, by norm_num⟩
  have hp : 0 < |x| := abs_pos.mpr h0
  set e := Int.log 10 |x| with he
  have lo : (10 : ℚ) ^ e ≤ |x| := by
    have := Int.zpow_log_le_self (R := ℚ) (b := 10) (by norm_num) hp
    simpa using this
  have hi : |x| < (10 : ℚ) ^ (e + 1) := by
    have := Int.lt_zpow_succ_log_self (R := ℚ) (b := 10) (by norm_num) |x|
    simpa using this
  have h10 : ∀ z : ℤ, (0 : ℚ) < (10 : ℚ) ^ z := fun z => zpow_pos (by norm_num) z
  have e1 : e < 30 := by
    have : (10 : ℚ) ^ e < (10 : ℚ) ^ (30 : ℤ) := lt_of_le_of_lt lo (by exact_mod_cast hx.1)
    exact (zpow_lt_zpow_iff_right₀ (by norm_num)).mp this
  have e2 : -300 < e + 1 := by
    have h3 : (1 : ℚ) / 10 ^ 300 ≤ |x| := hx.2.resolve_left h0
    have h4 : (10 : ℚ) ^ (-300 : ℤ) = 1 / 10 ^ 300 := by
      rw [zpow_neg, one_div]; norm_cast
    have : (10 : ℚ) ^ (-300 : ℤ) < (10 : ℚ) ^ (e + 1) := by rw [h4]; exact lt_of_le_of_lt h3 hi
    exact (zpow_lt_zpow_iff_right₀ (by norm_num)).mp this
  set y := |x| * (10 : ℚ) ^ ((6 : ℤ) - e) with hy
  have hy0 : 0 ≤ y := mul_nonneg hp.le (h10 _).le
  have hy7 : y < 10 ^ 7 := by
    have : y < (10 : ℚ) ^ (e + 1) * (10 : ℚ) ^ ((6 : ℤ) - e) := mul_lt_mul_of_pos_right hi (h10 _)
    rw [← zpow_add₀ (by norm_num), show e + 1 + (6 - e) = 7 by ring] at this
    exact_mod_cast this
  have near := pyRound_near y
  have hr := pyRound_nonneg hy0
  set n := (pyRound y).toNat with hn
  have hq : (n : ℚ) = pyRound y := by rw [hn, ← Int.cast_natCast, Int.toNat_of_nonneg hr]
  have hn7 : n ≤ 10 ^ 7 := by
    rw [← hq, abs_le] at near
    have : (n : ℚ) < ((10 ^ 7 + 1 : ℕ) : ℚ) := by push_cast; linarith [near.2]
    have := Nat.cast_lt.mp this
    omega
  have val : |(n : ℚ) / 10 ^ 6 * (10 : ℚ) ^ e - abs x| ≤ |x| / 2 / 10 ^ 6 := by
    have hx' : |x| = y / 10 ^ 6 * (10 : ℚ) ^ e := by
      rw [hy, zpow_sub₀ (by norm_num)]
      have := (h10 e).ne'
      field_simp
    have e3 : (n : ℚ) / 10 ^ 6 * (10 : ℚ) ^ e - |x| = (pyRound y - y) * ((10 : ℚ) ^ e / 10 ^ 6) := by
      rw [hx', hq]; ring
    rw [e3, abs_mul, abs_of_pos (div_pos (h10 e) (by norm_num) : (0 : ℚ) < (10 : ℚ) ^ e / 10 ^ 6)]
    calc |(pyRound y : ℚ) - y| * ((10 : ℚ) ^ e / 10 ^ 6) ≤ 1 / 2 * ((10 : ℚ) ^ e / 10 ^ 6) :=
          mul_le_mul_of_nonneg_right near (div_nonneg (h10 e).le (by norm_num))
      _ ≤ 1 / 2 * (|x| / 10 ^ 6) := by
          have := div_le_div_of_nonneg_right lo (by norm_num : (0 : ℚ) ≤ 10 ^ 6)
          linarith
      _ = |x| / 2 / 10 ^ 6 := by ring
  refine ⟨if n = 10 ^ (6 + 1) then 10 ^ 6 else n, if n = 10 ^ (6 + 1) then e + 1 else e, ?_, ?_, ?_, ?_⟩
  · rw [sciForm]
    simp only [if_neg h0, Nat.cast_ofNat, ← he, ← hy, ← hn]
  · split <;> [norm_num; omega]
  · split <;> omega
  · by_cases h7 : n = 10 ^ (6 + 1)
    · rw [if_pos h7, if_pos h7]
      rw [h7] at val
      have e4 : (((10 : ℕ) ^ 6 : ℕ) : ℚ) / 10 ^ 6 * (10 : ℚ) ^ (e + 1) = (((10 : ℕ) ^ (6 + 1) : ℕ) : ℚ) / 10 ^ 6 * (10 : ℚ) ^ e := by
        rw [zpow_add_one₀ (by norm_num)]
        push_cast
        ring
      rw [e4]
      exact val
    · rw [if_neg h7, if_neg h7]
      exact val

theorem sci_reads {x : ℚ} (hx : Writable x) : ∃ q, Reads (sciForm 6 x) q ∧ |q - x| ≤ |x| / 2 / 10 ^ 6 := by
  obtain ⟨m, f, e, hm, hf, near⟩ := sci_parts hx
  set a := decimal (m / 10 ^ 6) with ha
  set b := digits 6 (m % 10 ^ 6) with hb
  set d := (if f.natAbs < 10 then ['0'] else []) ++ decimal f.natAbs with hd
  have bl : b.length = 6 := digits_length _ _
  have da : a.all isDigit := (value_decimal _).2.1
  have db : b.all isDigit := (digits_spec _ _).2
  have dd : d.all isDigit := by
    rw [hd, List.all_append, (value_decimal _).2.1]
    split <;> rfl
  have hab : number (a ++ b) = m := by
    rw [number_value (by rw [List.all_append, da, db]; rfl), value_append, ha, hb, (value_decimal _).1, (digits_spec _ _).1, digits_length]
    congr 1
    omega
  have hdv : number d = (f.natAbs : ℕ) := by
    rw [number_value dd, hd, value_append, (value_decimal _).1]
    split <;> simp [value]
  have clean : ∀ c ∈ a ++ b ++ d, Digit c := by
    intro c hc
    refine digit_of ?_
    have : (a ++ b ++ d).all isDigit := by rw [List.all_append, List.all_append, da, db, dd]; rfl
    exact List.all_eq_true.mp this c hc
  have al : a.length ≤ 1 := by
    rw [ha]
    refine (decimal_length (by norm_num)).mpr ?_
    omega
  have dl : d.length ≤ 4 := by
    have := (decimal_length (n := f.natAbs) (k := 3) (by norm_num)).mpr (by omega)
    rw [hd, List.length_append]
    split <;> simp <;> omega
  have dne : d ≠ [] := by
    have := (value_decimal f.natAbs).2.2
    rw [hd]
    intro h
    exact this (List.append_eq_nil_iff.mp h).2
  refine ⟨(if x < 0 then -1 else 1) * ((m : ℚ) / 10 ^ 6) * (10 : ℚ) ^ f, ⟨⟨?_, ?_⟩, ?_, ?_⟩, ?_⟩
  · rw [e]; simp
  · intro c hc
    rw [e] at hc
    simp only [List.mem_append, List.mem_cons] at hc
    rcases hc with ((h | h) | rfl | h) | rfl | rfl | h
    · by_cases h0 : x < 0
      · rw [if_pos h0, List.mem_singleton] at h; subst h; decide
      · rw [if_neg h0] at h; exact absurd h (by simp)
    · exact digit_clean (clean c (by simp [h]))
    · decide
    · exact digit_clean (clean c (by simp [h]))
    · decide
    · split <;> decide
    · exact digit_clean (clean c (List.mem_append_right _ h))
  · rw [e]
    simp only [List.length_append, List.length_cons] at dl ⊢
    rw [bl]
    have : (if x < 0 then ['-'] else []).length ≤ 1 := by split <;> simp
    have hdl : d.length = (if f.natAbs < 10 then ['0'] else []).length + (decimal f.natAbs).length := by rw [hd, List.length_append]
    omega
  · intro at' rnd hat k tail ht
    have := hat.exponent k (decide (x < 0)) (decide (f < 0)) a b d tail f.natAbs (value_decimal _).2.2 dne clean ht hdv
    rw [bl, hab] at this
    rw [e]
    have hz : (if decide (f < 0) = true then -(f.natAbs : ℤ) else (f.natAbs : ℤ)) = f := by
      by_cases h : f < 0
      · simp only [h, decide_true, if_true]; omega
      · simp only [h, decide_false, Bool.false_eq_true, if_false]; omega
    rw [hz] at this
    simp only [List.append_assoc, List.cons_append, decide_eq_true_eq] at this ⊢
    exact this
  · by_cases h0 : x < 0
    · rw [if_pos h0]
      rw [abs_of_neg h0] at near ⊢
      rw [abs_le] at near ⊢
      constructor <;> linarith [near.1, near.2]
    · rw [if_neg h0]
      rw [abs_of_nonneg (not_lt.mp h0)] at near ⊢
      rwa [one_mul]

/-- The text of a column: a field, not too long, that reads as a number near the one written. -/
theorem text_reads {c : Nat × Bool} (hc : c.1 ≤ 39) {x : ℚ} (hx : Writable x) : ∃ q, Verif.Spec.IsField (text sciForm c x) ∧
    (text sciForm c x).length ≤ 39 ∧ |q - x| ≤ (if c.2 then |x| / 2 / 10 ^ 6 else 1 / 2 / 10 ^ 6) ∧
    ∀ {at' : List Char → Dbl} {rnd : ℚ → ℚ}, ReadsNumbers at' rnd → ∀ (tail : List Char), tail = [] ∨ tail = ['\r'] →
      at' (text sciForm c x ++ tail) = .fin (rnd q) := by
  obtain ⟨q, hr, hq⟩ : ∃ q, Reads (if c.2 then sciForm 6 x else fixed 6 x) q ∧ |q - x| ≤ (if c.2 then |x| / 2 / 10 ^ 6 else 1 / 2 / 10 ^ 6) := by
    cases c.2
    · exact fixed_reads hx.1
    · exact sci_reads hx
  refine ⟨q, ⟨?_, ?_⟩, ?_, hq, ?_⟩
  · rw [text, pad]
    intro h
    exact hr.field.1 (List.append_eq_nil_iff.mp h).2
  · intro ch h
    rw [text, pad] at h
    rcases List.mem_append.mp h with h | h
    · rw [List.mem_replicate] at h
      rw [h.2]; decide
    · exact hr.field.2 ch h
  · have := hr.short
    simp only [text, pad, List.length_append, List.length_replicate]
    omega
  · intro at' rnd hat tail ht
    exact hr.atof hat _ tail ht

/-! ### Lines and files -/

/-- The fields that a reader of lines sees: the carriage return belongs to the last one. -/
def withCr : List (List Char) → List (List Char)
  | [] => []
  | [t] => [t ++ ['\r']]
  | t :: ts => t :: withCr ts

theorem withCr_length : ∀ ts : List (List Char), (withCr ts).length = ts.length
  | [] => rfl
  | [_] => rfl
  | _ :: u :: ts => by simp [withCr, withCr_length (u :: ts)]

theorem withCr_ne {ts : List (List Char)} (h : ts ≠ []) : withCr ts ≠ [] := by
  intro e
  have := withCr_length ts
  rw [e] at this
  exact h (List.length_eq_zero_iff.mp this.symm)

theorem rowOf_line : ∀ {ts : List (List Char)}, ts ≠ [] → rowOf ts = Verif.Spec.lineOf (withCr ts)
  | [], h => absurd rfl h
  | [t], _ => by simp [rowOf, withCr, Verif.Spec.lineOf, Verif.Spec.joinComma]
  | t :: u :: ts, _ => by
    have ih := rowOf_line (ts := u :: ts) (by simp)
    have hne := withCr_ne (ts := u :: ts) (by simp)
    have e1 : rowOf (t :: u :: ts) = t ++ ',' :: rowOf (u :: ts) := rfl
    have e2 : withCr (t :: u :: ts) = t :: withCr (u :: ts) := rfl
    rw [e1, e2, ih]
    cases hc : withCr (u :: ts) with
    | nil => exact absurd hc hne
    | cons v vs => simp [Verif.Spec.joinComma, Verif.Spec.lineOf]

theorem withCr_getD : ∀ (ts : List (List Char)) (j : Nat), j < ts.length → ∃ tail, (tail = [] ∨ tail = ['\r']) ∧
    (withCr ts).getD j [] = ts.getD j [] ++ tail
  | [], j, h => by simp at h
  | [t], j, h => by
    obtain rfl : j = 0 := by simpa using h
    exact ⟨['\r'], .inr rfl, rfl⟩
  | t :: u :: ts, 0, _ => ⟨[], .inl rfl, by simp [withCr]⟩
  | t :: u :: ts, j + 1, h => by
    obtain ⟨tail, ht, e⟩ := withCr_getD (u :: ts) j (by simpa using h)
    exact ⟨tail, ht, by simpa [withCr] using e⟩

theorem withCr_field : ∀ {ts : List (List Char)}, (∀ t ∈ ts, Verif.Spec.IsField t) → ∀ t ∈ withCr ts, Verif.Spec.IsField t
  | [], _, t, ht => by simp [withCr] at ht
  | [s], h, t, ht => by
    obtain rfl : t = s ++ ['\r'] := by simpa [withCr] using ht
    have := h s (by simp)
    refine ⟨by simp, fun c hc => ?_⟩
    rcases List.mem_append.mp hc with hc | hc
    · exact this.2 c hc
    · rw [List.mem_singleton] at hc; subst hc; decide
  | s :: u :: ts, h, t, ht => by
    rw [withCr] at ht
    · rcases List.mem_cons.mp ht with rfl | ht
      · exact h t (by simp)
      · exact withCr_field (ts := u :: ts) (fun v hv => h v (List.mem_cons_of_mem _ hv)) t ht
    · simp

/-- The texts of a line. -/
def texts (s : Series) (row : String → ℚ) : List (List Char) := List.zipWith (text sciForm) (cols s) ((written s).map row)

theorem line_texts {s : Series} (hs : s ≠ .tauUl) (str : ℚ → List Char) (row : String → ℚ) : line sciForm str s row = .ok (rowOf (texts s row)) := by
  have := percent_build sciForm str (cols s) ((written s).map row) (by rw [List.length_map, (cols_written hs).1])
  simp only [line, pieces_cols]
  rw [List.map_map] at this
  exact this

theorem texts_length {s : Series} (hs : s ≠ .tauUl) (row : String → ℚ) : (texts s row).length = (written s).length := by
  simp [texts, (cols_written hs).1]

theorem texts_ne {s : Series} (hs : s ≠ .tauUl) (row : String → ℚ) : texts s row ≠ [] := by
  intro h
  have h1 := texts_length hs row
  have h2 := List.length_pos_iff.mpr (cols_written hs).2
  rw [h, ← (cols_written hs).1] at h1
  simp only [List.length_nil] at h1
  omega

theorem texts_getD {s : Series} (hs : s ≠ .tauUl) (row : String → ℚ) {j : Nat} (hj : j < (written s).length) :
    (texts s row).getD j [] = text sciForm ((cols s).getD j (0, false)) (row ((written s).getD j "")) := by
  have h1 := texts_length hs row
  have h2 := (cols_written hs).1
  rw [getD_in [] (by omega : j < (texts s row).length), getD_in (0, false) (by omega : j < (cols s).length), getD_in "" hj]
  simp [texts]

theorem cols_width (s : Series) : ∀ j < (cols s).length, ((cols s).getD j (0, false)).1 ≤ 39 := by
  cases s <;> decide +kernel

theorem texts_good {s : Series} (hs : s ≠ .tauUl) {row : String → ℚ} (hw : ∀ name ∈ written s, Writable (row name)) :
    ∀ t ∈ texts s row, Verif.Spec.IsField t ∧ t.length ≤ 39 := by
  intro t ht
  obtain ⟨j, hj, rfl⟩ := List.mem_iff_getElem.mp ht
  have hj' : j < (written s).length := by rw [← texts_length hs row]; exact hj
  have e := texts_getD hs row hj'
  rw [getD_in [] hj] at e
  rw [e]
  have hm : (written s).getD j "" ∈ written s := by rw [getD_in "" hj']; exact List.getElem_mem _
  obtain ⟨q, h1, h2, -⟩ := text_reads (cols_width s j (by rw [(cols_written hs).1]; exact hj')) (hw _ hm)
  exact ⟨h1, h2⟩

theorem sum_le_of {l : List Nat} {b : Nat} (h : ∀ x ∈ l, x ≤ b) : l.sum ≤ b * l.length := by
  induction l with
  | nil => simp
  | cons x l ih =>
    have h1 := h x (by simp)
    have h2 := ih fun y hy => h y (List.mem_cons_of_mem _ hy)
    simp only [List.sum_cons, List.length_cons, Nat.mul_succ]
    omega

theorem line_short {s : Series} (hs : s ≠ .tauUl) {row : String → ℚ} (hw : ∀ name ∈ written s, Writable (row name)) :
    (rowOf (texts s row)).length < 1024 := by
  rw [rowOf_length _ (texts_ne hs row)]
  have h1 := sum_le_of (l := (texts s row).map List.length) (b := 39) (by
    intro x hx
    obtain ⟨t, ht, rfl⟩ := List.mem_map.mp hx
    exact (texts_good hs hw t ht).2)
  rw [List.length_map] at h1
  have h2 := texts_length hs row
  have h3 : (written s).length ≤ 24 := by revert hs; cases s <;> decide
  omega

theorem mapM_pure {α β : Type} {f : α → Py β} {g : α → β} : ∀ {l : List α}, (∀ x ∈ l, f x = .ok (g x)) → l.mapM f = .ok (l.map g)
  | [], _ => rfl
  | x :: l, h => by
    rw [List.mapM_cons, h x (by simp), mapM_pure fun y hy => h y (List.mem_cons_of_mem _ hy)]
    rfl

/-- The file is a table of fields. -/
theorem file_fields {s : Series} (hs : s ≠ .tauUl) (str : ℚ → List Char) (rows : List (String → ℚ)) :
    fileText sciForm str s rows = .ok (Verif.Spec.fileOf (rows.map fun row => withCr (texts s row))) := by
  rw [fileText, mapM_pure (g := fun row => rowOf (texts s row)) fun row _ => line_texts hs str row]
  simp only [bind, Except.bind, pure, Except.pure, Verif.Spec.fileOf, List.flatMap_def, List.map_map]
  congr 2
  exact List.map_congr_left fun row _ => rowOf_line (texts_ne hs row)

theorem file_table {s : Series} (hs : s ≠ .tauUl) {rows : List (String → ℚ)} (hne : rows ≠ [])
    (hw : ∀ row ∈ rows, ∀ name ∈ written s, Writable (row name)) :
    Verif.Spec.IsTable (written s).length (rows.map fun row => withCr (texts s row)) where
  nonempty := by simpa using hne
  width := by
    intro r hr
    obtain ⟨row, -, rfl⟩ := List.mem_map.mp hr
    rw [withCr_length, texts_length hs]
  fields := by
    intro r hr
    obtain ⟨row, h, rfl⟩ := List.mem_map.mp hr
    exact withCr_field fun t ht => (texts_good hs (hw row h) t ht).1
  short := by
    intro r hr
    obtain ⟨row, h, rfl⟩ := List.mem_map.mp hr
    rw [← rowOf_line (texts_ne hs row)]
    exact line_short hs (hw row h)

/-! ### Columns -/

/-- The kinds of files without uplink and the readers for them. -/
def readers : List (Series × Kind) := [(.geo, .geo), (.cal, .cal), (.dlp, .dlp), (.tau, .tau)]

theorem reader_width : ∀ p ∈ readers, p.1 ≠ .tauUl ∧ (written p.1).length = Verif.Spec.documentedColumns p.2 false ∧
    p.2 ≠ .merged ∧ p.2 ≠ .uranus := by decide

theorem reader_order : ∀ p ∈ readers, ∀ j < (written p.1).length, ∀ e ∈ meaning, e.1 = (written p.1).getD j "" → ∀ d ∈ e.2, d.1 = p.2 →
    (Verif.Spec.documentedOrder p.2 false)[j]? = some d.2 := by decide +kernel

theorem reader_all : ∀ p ∈ readers, ∀ name ∈ written p.1, ∃ e ∈ meaning, e.1 = name ∧ ∃ d ∈ e.2, d.1 = p.2 := by decide +kernel

theorem reader_near : ∀ p ∈ readers, ∀ j < (written p.1).length,
    ((cols p.1).getD j (0, false)).2 = decide ((written p.1).getD j "" ∈ ["p_norm", "tau_norm", "raw_tau_threshold"]) := by decide +kernel

/-- Files without uplink are read as they were written: all lines, every column where it belongs, and each number as near as it was written. -/
theorem C123_roundtrip_partial {V : CsvLib} (hV : Verif.Spec.CsvLaws V) {rnd : ℚ → ℚ} (hN : ReadsNumbers V.atof rnd)
    {s : Series} {k : Kind} (hs : (s, k) ∈ [(Series.geo, Kind.geo), (.cal, .cal), (.dlp, .dlp), (.tau, .tau)]) (hm : ∀ c ∈ allocOrder k false, V.mem c = true)
    (str : ℚ → List Char) (radians : Bool) {rows : List (String → ℚ)} (hne : rows ≠ []) (hw : ∀ row ∈ rows, ∀ name ∈ written s, Writable (row name)) :
    ∃ f o, fileText sciForm str s rows = .ok f ∧ csvExtract V k false radians (some f) = .ok o ∧ o.err = none ∧ o.n = rows.length ∧
      ∀ name ∈ written s, (∃ c, Belongs k name c) ∧ ∀ c, Belongs k name c → ∃ l, o.arr c = some l ∧ l.length = rows.length ∧
        ∀ i (hi : i < rows.length), ∃ q, l[i]? = some (.fin (rnd q)) ∧ |q - rows[i] name| ≤ nearness name (rows[i] name) := by
  obtain ⟨ht, hwid, hk1, hk2⟩ := reader_width (s, k) hs
  simp only at ht hwid hk1 hk2
  have hT := file_table ht hne hw
  rw [hwid] at hT
  obtain ⟨o, e, he, hn, -, hcol⟩ := Verif.C41_roundtrip hV k false radians hm hT (fun h => absurd h hk1) (fun h => absurd h hk2)
  refine ⟨_, o, file_fields ht str rows, e, he, by simpa using hn, ?_⟩
  intro name hname
  refine ⟨?_, ?_⟩
  · obtain ⟨e, h1, h2, d, h3, h4⟩ := reader_all (s, k) hs name hname
    exact ⟨d.2, e.2, by rw [← h2]; exact h1, by simp only at h4; rw [← h4]; exact h3⟩
  · rintro c ⟨l, hl, hc⟩
    obtain ⟨j, hj, rfl⟩ := List.mem_iff_getElem.mp hname
    have hg : (written s).getD j "" = (written s)[j] := getD_in "" hj
    have ho := reader_order (s, k) hs j hj ((written s)[j], l) hl hg.symm (k, c) hc rfl
    refine ⟨_, hcol j c ho, by simp, ?_⟩
    intro i hi
    obtain ⟨q, -, -, hq, hr⟩ := text_reads (cols_width s j (by rw [(cols_written ht).1]; exact hj)) (hw rows[i] (List.getElem_mem _) _ hname)
    obtain ⟨tail, htail, hget⟩ := withCr_getD (texts s rows[i]) j (by rw [texts_length ht]; exact hj)
    refine ⟨q, ?_, ?_⟩
    · rw [List.getElem?_map, List.getElem?_map, List.getElem?_eq_getElem hi]
      simp only [Option.map_some, hget, texts_getD ht _ hj, hg, hr hN tail htail]
    · have := reader_near (s, k) hs j hj
      simp only [hg] at this
      rw [this] at hq
      simp only [decide_eq_true_eq] at hq
      exact hq

/-- Files with uplink, which the writers make for every occultation that has one, are refused. -/
theorem C123_uplink_false {V : CsvLib} (hV : Verif.Spec.CsvLaws V) {s : Series} {k : Kind} (hs : (s, k) ∈ [(Series.geoUl, Kind.geo), (.dlpUl, .dlp)])
    (str : ℚ → List Char) (dep radians : Bool) {rows : List (String → ℚ)} (hne : rows ≠ []) (hw : ∀ row ∈ rows, ∀ name ∈ written s, Writable (row name)) :
    ∃ f o, fileText sciForm str s rows = .ok f ∧ csvExtract V k dep radians (some f) = .ok o ∧ o.err = some .columns := by
  have ht : s ≠ .tauUl := by rintro rfl; revert hs; cases k <;> decide
  refine ⟨_, { csvInit with dep := dep, radians := radians, err := some .columns }, file_fields ht str rows, ?_, rfl⟩
  have hT := file_table ht hne hw
  obtain ⟨row, rest, rfl⟩ := List.exists_cons_of_ne_nil hne
  have hc : V.columnCount (Verif.Spec.fileOf ((row :: rest).map fun row => withCr (texts s row))) = (written s).length := by
    rw [List.map_cons, Verif.Spec.fileOf, List.flatMap_cons, hV.columnCount _ _ (withCr_ne (texts_ne ht row))
      (hT.fields _ (by simp)), withCr_length, texts_length ht]
  have hrej : columnsRejected k dep (written s).length = true := by
    simp only [List.mem_cons, Prod.mk.injEq, List.not_mem_nil, or_false] at hs
    rcases hs with ⟨rfl, rfl⟩ | ⟨rfl, rfl⟩ <;> cases dep <;> decide
  simp only [csvExtract, checkColumnCount, csvInit, Option.isSome_none, Bool.false_eq_true, if_false, hc, hrej, if_true, Csv.fail, csvMalloc,
    Option.isSome_some, readData]

/-- The sky frequency: the calibration object holds reconstructed frequency plus offset, and so does the file; the library subtracts the offset
from what it reads.  With numbers read exactly and an exact difference, the frequencies that it interpolates are the reconstructed ones, and they
differ from those of the object wherever the offset is larger than two units of the last decimal. -/
theorem C123_frequency_false {V : CsvLib} (hV : Verif.Spec.CsvLaws V) (hN : ReadsNumbers V.atof id) (hm : ∀ c ∈ allocOrder .cal false, V.mem c = true)
    {L : DataLib} (hsub : ∀ a b, L.sub (.fin a) (.fin b) = .fin (a - b)) (str : ℚ → List Char) {n : Nat} (hn : n ≠ 0) (t recon offset free : Nat → ℚ)
    (hw : ∀ i < n, Writable (t i) ∧ Writable (recon i + offset i) ∧ Writable (offset i) ∧ Writable (free i)) :
    ∃ f k, fileText sciForm str .cal ((List.range n).map fun i => calPoint (t i) (recon i) (offset i) (free i)) = .ok f ∧
      csvExtract V .cal false false (some f) = .ok k ∧ k.err = none ∧
      ∀ (o : CsvData) (ns out : List Dbl), o.err = none → o.file .cal = some k → o.arr .tOet = some ns → o.arr .fSky = some out →
        ns.length = o.n → out.length = o.n →
        ∃ ts fs, Data.interpCal L o = .ok (Data.put o .fSky (some (L.interp ts fs ns))) ∧ fs.length = n ∧
          ∀ i < n, ∃ y, fs[i]? = some (.fin y) ∧ |y - recon i| ≤ 1 / 10 ^ 6 ∧
            (2 / 10 ^ 6 < |offset i| → 1 / 10 ^ 6 < |y - calPoint (t i) (recon i) (offset i) (free i) "f_sky_hz"|) := by
  have hne : ((List.range n).map fun i => calPoint (t i) (recon i) (offset i) (free i)) ≠ [] := by simpa using hn
  obtain ⟨f, k, hf, hk, he, hkn, hc⟩ := C123_roundtrip_partial hV hN (s := .cal) (k := .cal) (by decide) hm str false hne (by
    intro row hr name hname
    obtain ⟨i, hi, rfl⟩ := List.mem_map.mp hr
    obtain ⟨h1, h2, h3, h4⟩ := hw i (List.mem_range.mp hi)
    simp only [written, List.mem_cons, List.not_mem_nil, or_false] at hname
    rcases hname with rfl | rfl | rfl | rfl
    · exact h1
    · exact h2
    · exact h3
    · exact h4)
  refine ⟨f, k, hf, hk, he, ?_⟩
  simp only [List.length_map, List.length_range, List.getElem_map, List.getElem_range] at hkn hc
  obtain ⟨ts, hts, lts, -⟩ := (hc "t_oet_spm" (by decide)).2 .tOet ⟨_, List.Mem.head _, by decide⟩
  obtain ⟨ps, hps, lps, vps⟩ := (hc "f_sky_hz" (by decide)).2 .fSkyPred ⟨[(.cal, .fSkyPred)], by decide, by decide⟩
  obtain ⟨rs, hrs, lrs, vrs⟩ := (hc "f_offset_fit" (by decide)).2 .fSkyResid ⟨[(.cal, .fSkyResid)], by decide, by decide⟩
  intro o ns out ho hfile hns hout lns lout
  refine ⟨ts, List.zipWith L.sub ps rs, ?_, by simp [lps, lrs], ?_⟩
  · unfold Data.interpCal
    rw [if_neg (by simp [ho]), hfile]
    simp only [he, Option.isSome_none, Bool.false_eq_true, if_false]
    rw [hps, hrs, fill_zip L.sub (lps.trans hkn.symm) (lrs.trans hkn.symm), Res.ok_bind, hts, hns, hout,
      interpCall_ok L (by omega) (by simp [lps, lrs]; omega) lns lout, Res.ok_bind]
    rfl
  · intro i hi
    obtain ⟨p, hp, np⟩ := vps i hi
    obtain ⟨r, hr, nr⟩ := vrs i hi
    simp only [id] at hp hr
    have e1 : calPoint (t i) (recon i) (offset i) (free i) "f_sky_hz" = recon i + offset i := rfl
    have e2 : calPoint (t i) (recon i) (offset i) (free i) "f_offset_fit" = offset i := rfl
    rw [e1, nearness, if_neg (by decide)] at np
    rw [e2, nearness, if_neg (by decide)] at nr
    have key : |p - r - recon i| ≤ 1 / 10 ^ 6 := by
      rw [abs_le] at np nr ⊢
      constructor <;> linarith [np.1, np.2, nr.1, nr.2]
    refine ⟨p - r, ?_, key, ?_⟩
    · rw [List.getElem?_zipWith, hp, hr]
      simp only [hsub]
    · intro ho
      rw [e1]
      have := abs_sub_abs_le_abs_sub (offset i) (p - r - recon i)
      have e3 : |offset i - (p - r - recon i)| = |p - r - (recon i + offset i)| := by rw [abs_sub_comm]; congr 1; ring
      rw [e3] at this
      linarith

/-! ### A concrete library for the examples -/

/-- What stands behind the decimals. -/
def readTail (m : ℚ) : List Char → ℚ
  | 'E' :: c :: d => m * (10 : ℚ) ^ (if c = '-' then -(value (d.takeWhile isDigit) : ℤ) else (value (d.takeWhile isDigit) : ℤ))
  | _ => m

/-- A reader of numbers. -/
def readNum (s : List Char) : ℚ :=
  let s := s.dropWhile (· = ' ')
  let neg := s.head? = some '-'
  let s := if neg then s.drop 1 else s
  let a := s.takeWhile isDigit
  match s.dropWhile isDigit with
  | '.' :: t =>
    let b := t.takeWhile isDigit
    readTail ((if neg then -1 else 1) * (number (a ++ b) / 10 ^ b.length)) (t.dropWhile isDigit)
  | _ => 0

theorem isDigit_of {c : Char} (h : Digit c) : isDigit c = true := by
  simp only [Digit] at h
  simp only [isDigit, Bool.and_eq_true, decide_eq_true_eq]
  exact h

theorem takeWhile_digits {a : List Char} (h : ∀ c ∈ a, Digit c) {r : List Char} (hr : ∀ c ∈ r.head?, isDigit c = false) :
    (a ++ r).takeWhile isDigit = a ∧ (a ++ r).dropWhile isDigit = r := by
  have h' : ∀ c ∈ a, isDigit c = true := fun c hc => isDigit_of (h c hc)
  rw [List.takeWhile_append_of_pos h', List.dropWhile_append_of_pos h']
  cases r with
  | nil => simp
  | cons c r =>
    have := hr c rfl
    simp [this]

theorem dropWhile_spaces (k : Nat) {r : List Char} (hr : ∀ c ∈ r.head?, c ≠ ' ') : (List.replicate k ' ' ++ r).dropWhile (· = ' ') = r := by
  rw [List.dropWhile_append_of_pos (by intro c hc; simpa using (List.mem_replicate.mp hc).2)]
  cases r with
  | nil => rfl
  | cons c r =>
    have := hr c rfl
    simp [this]

/-- The sign in front of digits. -/
theorem readNum_sign (k : Nat) (neg : Bool) {a : List Char} (ha : a ≠ []) (hd : ∀ c ∈ a, Digit c) (r : List Char) :
    let s := (List.replicate k ' ' ++ (if neg then ['-'] else []) ++ a ++ r).dropWhile (· = ' ')
    (s.head? = some '-' ↔ neg = true) ∧ (if s.head? = some '-' then s.drop 1 else s) = a ++ r := by
  obtain ⟨c, a, rfl⟩ := List.exists_cons_of_ne_nil ha
  have hc := hd c (by simp)
  have h1 : c ≠ ' ' := by rintro rfl; revert hc; unfold Digit; decide
  have h2 : c ≠ '-' := by rintro rfl; revert hc; unfold Digit; decide
  simp only [List.append_assoc]
  rw [dropWhile_spaces]
  · cases neg <;> simp [h2]
  · cases neg <;> simp [h1]

theorem readNum_point (k : Nat) (neg : Bool) {a b r : List Char} (ha : a ≠ []) (hd : ∀ c ∈ a ++ b, Digit c) (hr : ∀ c ∈ r.head?, isDigit c = false) :
    readNum (List.replicate k ' ' ++ (if neg then ['-'] else []) ++ a ++ '.' :: b ++ r) =
      readTail ((if neg then -1 else 1) * (number (a ++ b) / 10 ^ b.length)) r := by
  obtain ⟨h1, h2⟩ := readNum_sign k neg ha (fun c hc => hd c (List.mem_append_left _ hc)) ('.' :: b ++ r)
  obtain ⟨h3, h4⟩ := takeWhile_digits (a := a) (r := '.' :: b ++ r) (fun c hc => hd c (List.mem_append_left _ hc)) (by simp; decide)
  obtain ⟨h5, h6⟩ := takeWhile_digits (a := b) (r := r) (fun c hc => hd c (List.mem_append_right _ hc)) hr
  rw [← List.append_assoc] at h1 h2
  simp only [readNum]
  simp only [h2, h3, h4]
  simp only [List.cons_append, h5, h6]
  simp only [h1]

theorem filter_clean {s : List Char} (h : ∀ c ∈ s, c ≠ '\n') : s.filter (· ≠ '\n') = s := by
  rw [List.filter_eq_self]
  intro c hc
  simpa using h c hc

theorem sign_clean (neg : Bool) : ∀ c ∈ (if neg then ['-'] else []), c ≠ '\n' := by cases neg <;> decide

theorem readNum_reads : ReadsNumbers (fun s => .fin (readNum (s.filter (· ≠ '\n')))) id where
  decimal := by
    intro k neg a b tail ha hd ht
    have hcl : ∀ c ∈ List.replicate k ' ' ++ (if neg then ['-'] else []) ++ a ++ '.' :: b ++ tail, c ≠ '\n' := by
      intro c hc
      simp only [List.mem_append, List.mem_cons, List.mem_replicate] at hc
      rcases hc with (((⟨-, rfl⟩ | h) | h) | rfl | h) | h
      · decide
      · exact sign_clean neg c h
      · exact (digit_clean (hd c (by simp [h]))).2.1
      · decide
      · exact (digit_clean (hd c (by simp [h]))).2.1
      · rcases ht with rfl | rfl
        · simp at h
        · rw [List.mem_singleton] at h; subst h; decide
    simp only [id]
    rw [filter_clean hcl, readNum_point k neg ha hd (by rcases ht with rfl | rfl <;> simp; decide)]
    rcases ht with rfl | rfl <;> rfl
  exponent := by
    intro k neg down a b d tail e ha hdn hd ht he
    have hcl : ∀ c ∈ List.replicate k ' ' ++ (if neg then ['-'] else []) ++ a ++ '.' :: b ++ 'E' :: (if down then '-' else '+') :: d ++ tail, c ≠ '\n' := by
      intro c hc
      simp only [List.mem_append, List.mem_cons, List.mem_replicate] at hc
      rcases hc with ((((⟨-, rfl⟩ | h) | h) | rfl | h) | rfl | rfl | h) | h
      · decide
      · exact sign_clean neg c h
      · exact (digit_clean (hd c (by simp [h]))).2.1
      · decide
      · exact (digit_clean (hd c (by simp [h]))).2.1
      · decide
      · cases down <;> decide
      · exact (digit_clean (hd c (by simp [h]))).2.1
      · rcases ht with rfl | rfl
        · simp at h
        · rw [List.mem_singleton] at h; subst h; decide
    simp only [id]
    rw [filter_clean hcl]
    have hnd : ∀ c ∈ d, Digit c := fun c hc => hd c (List.mem_append_right _ hc)
    obtain ⟨h1, -⟩ := takeWhile_digits (a := d) (r := tail) hnd (by rcases ht with rfl | rfl <;> simp; decide)
    have hv : value d = e := by
      have := number_value (l := d) (List.all_eq_true.mpr fun c hc => isDigit_of (hnd c hc))
      rw [he] at this
      exact_mod_cast this.symm
    have := readNum_point k neg (b := b) (r := 'E' :: (if down then '-' else '+') :: (d ++ tail)) ha
      (fun c hc => hd c (List.mem_append_left _ hc)) (by simp; decide)
    simp only [List.append_assoc, List.cons_append] at this ⊢
    rw [this]
    simp only [readTail, h1, hv]
    cases down <;> simp

/-- A library that reads decimal numbers exactly. -/
def exactLib : CsvLib := { Verif.demoLib with atof := fun s => .fin (readNum (s.filter (· ≠ '\n'))) }

theorem exactLib_laws : Verif.Spec.CsvLaws exactLib where
  atof s := by simp [exactLib, List.filter_append]
  lineCount := Verif.demoLib_laws.lineCount
  columnCount := Verif.demoLib_laws.columnCount

/-- Two points of a profile. -/
def profile : List (String → ℚ) := [fun name => if name = "p_norm" then 123456789 / 10 ^ 12 else 74490 + 1 / 3, fun name => if name = "tau_norm" then 0 else -1]

/-- The conditions can be met: a profile of two points, whose power of 0.000123456789 is read as 0.0001234568. -/
example : Verif.Spec.CsvLaws exactLib ∧ ReadsNumbers exactLib.atof id ∧ profile ≠ [] ∧ (∀ row ∈ profile, ∀ name ∈ written .tau, Writable (row name)) ∧
    sciForm 6 (123456789 / 10 ^ 12) = "1.234568E-04".toList ∧ exactLib.atof "  1.234568E-04".toList = .fin (1234568 / 10 ^ 10) := by
  refine ⟨exactLib_laws, readNum_reads, by decide, ?_, by decide +kernel, by decide +kernel⟩
  unfold Writable
  decide +kernel

/-- Files with uplink: for instance all numbers equal to one. -/
example : (Series.geoUl, Kind.geo) ∈ [(Series.geoUl, Kind.geo), (.dlpUl, .dlp)] ∧ ∀ row ∈ [fun _ : String => (1 : ℚ)], ∀ name ∈ written .geoUl, Writable (row name) := by
  unfold Writable
  decide +kernel

/-- Frequencies of an occultation in X band, with an offset of a thousand hertz. -/
example : Writable 37800 ∧ Writable (8427222034 + 1 / 3 + 1000) ∧ Writable 1000 ∧ Writable 20000 ∧ (2 / 10 ^ 6 : ℚ) < |1000| := by
  unfold Writable
  decide +kernel

end Verif.Pds
