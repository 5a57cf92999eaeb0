import Verif.Model.Pds
import Verif.Spec.Pds
import Verif.Props.C114
import Mathlib.Tactic.Linarith

/-!
# C115: tables and labels
-/
namespace Verif.Pds
open Verif.Rsr Verif.Out Spec

/-- The columns of a table: width and whether the exponent form is used. -/
def cols : Series → List (Nat × Bool)
  | .geo => [(14, false), (14, false), (14, false), (14, false), (12, false), (12, false), (12, false), (16, false), (14, false), (14, false),
      (14, false), (14, false), (16, false), (16, false), (16, false), (14, false), (14, false), (14, false), (12, false)]
  | .geoUl => [(14, false), (14, false), (14, false), (14, false), (12, false), (12, false), (12, false), (16, false), (14, false), (14, false),
      (14, false), (14, false), (16, false), (16, false), (16, false), (14, false), (14, false), (14, false), (12, false),
      (14, false), (14, false), (14, false), (12, false), (12, false)]
  | .cal => [(14, false), (20, false), (10, false), (14, false)]
  | .dlp => [(14, false), (10, false), (10, false), (12, false), (12, false), (14, true), (14, true), (12, false), (14, true), (14, false),
      (14, false), (14, false), (12, false)]
  | .tau => [(14, false), (10, false), (10, false), (12, false), (12, false), (14, true), (14, true), (12, false), (14, true), (14, false),
      (14, false), (14, false), (12, false)]
  | .dlpUl => [(14, false), (10, false), (10, false), (12, false), (12, false), (14, true), (14, true), (12, false), (14, true), (14, false),
      (14, false), (14, false), (12, false), (14, false), (14, false), (14, false), (12, false), (12, false)]
  | .tauUl => [(14, false), (10, false), (10, false), (12, false), (12, false), (14, true), (14, true), (12, false), (14, true), (14, false),
      (14, false), (14, false), (12, false), (14, false), (14, false), (14, false), (12, false), (12, false)]

/-- One conversion. -/
def conv (c : Nat × Bool) : Piece := if c.2 then .sci c.1 6 else .fix c.1 6

/-- Conversions with commas between them, and the end of the line. -/
def build : List (Nat × Bool) → List Piece
  | [] => [.str]
  | [c] => [conv c, .str]
  | c :: cs => conv c :: .lit ',' :: build cs

theorem pieces_cols (k : Series) : pieces ((formatStr k).length + 1) (formatStr k) = some (build (cols k)) := by
  cases k <;> decide +kernel

theorem widths_cols (k : Series) : (labelFormats k).mapM width = .ok ((cols k).map (·.1)) := by
  cases k <;> decide +kernel

/-- The text of a column. -/
def text (sci : Nat → ℚ → List Char) (c : Nat × Bool) (x : ℚ) : List Char := pad c.1 (if c.2 then sci 6 x else fixed 6 x)

/-- Texts with commas between them, and the end of the line. -/
def rowOf : List (List Char) → List Char
  | [] => ['\r', '\n']
  | [t] => t ++ ['\r', '\n']
  | t :: ts => t ++ ',' :: rowOf ts

theorem percent_build (sci : Nat → ℚ → List Char) (str : ℚ → List Char) : ∀ (cs : List (Nat × Bool)) (xs : List ℚ), cs.length = xs.length →
    percent sci str (build cs) (xs.map Arg.num ++ [Arg.txt ['\r', '\n']]) = .ok (rowOf (List.zipWith (text sci) cs xs))
  | [], [], _ => rfl
  | [c], [x], _ => by
    obtain ⟨w, b⟩ := c
    cases b <;> simp [build, conv, percent, rowOf, text, bind, Except.bind, pure, Except.pure]
  | c :: d :: cs, x :: y :: xs, h => by
    have ih := percent_build sci str (d :: cs) (y :: xs) (by simpa using h)
    obtain ⟨w, b⟩ := c
    rw [build]
    · rw [List.map_cons, List.cons_append]
      cases b <;>
      simp only [conv, percent, if_true, if_false, Bool.false_eq_true, ih, bind, Except.bind, pure, Except.pure, List.zipWith_cons_cons, rowOf, text]
    · simp

theorem percent_more (sci : Nat → ℚ → List Char) (str : ℚ → List Char) : ∀ (cs : List (Nat × Bool)) (xs : List ℚ), cs.length < xs.length →
    percent sci str (build cs) (xs.map Arg.num ++ [Arg.txt ['\r', '\n']]) = .error .type
  | [], x :: xs, _ => by
    cases xs <;> simp [build, percent, bind, Except.bind]
  | [c], x :: y :: xs, _ => by
    obtain ⟨w, b⟩ := c
    cases b <;> cases xs <;> simp [build, conv, percent, bind, Except.bind]
  | c :: d :: cs, x :: xs, h => by
    have ih := percent_more sci str (d :: cs) xs (by simpa using h)
    obtain ⟨w, b⟩ := c
    rw [build]
    · rw [List.map_cons, List.cons_append]
      cases b <;>
      simp only [conv, percent, if_true, if_false, Bool.false_eq_true, ih, bind, Except.bind]
    · simp

/-- The first bytes of columns of the widths `ws` if the first one begins at `s`. -/
def startsFrom : Nat → List Nat → List Nat
  | _, [] => []
  | s, w :: ws => s :: startsFrom (s + w + 1) ws

theorem starts_eq : ∀ (s : Nat) (ws : List Nat), (s :: cumsum s (ws.map (· + 1))).dropLast = startsFrom s ws
  | s, [] => rfl
  | s, w :: ws => by
    rw [List.map_cons, cumsum, List.dropLast_cons_of_ne_nil (by simp), startsFrom]
    exact congrArg _ (starts_eq (s + w + 1) ws)

theorem rowOf_length : ∀ ts : List (List Char), ts ≠ [] → (rowOf ts).length = (ts.map List.length).sum + (ts.length - 1) + 2
  | [t], _ => by simp [rowOf]
  | t :: u :: ts, _ => by
    have := rowOf_length (u :: ts) (by simp)
    rw [rowOf]
    · simp only [List.length_append, List.length_cons, this, List.map_cons, List.sum_cons]
      omega
    · simp

theorem rowOf_field : ∀ (pre : List Char) (ts : List (List Char)) (j : Nat), j < ts.length →
    Spec.field (pre ++ rowOf ts) ((startsFrom (pre.length + 1) (ts.map List.length)).getD j 0) ((ts.map List.length).getD j 0) = ts.getD j []
  | pre, [t], 0, _ => by simp [Spec.field, startsFrom, rowOf]
  | pre, t :: u :: ts, 0, _ => by
    rw [rowOf]
    · simp [Spec.field, startsFrom]
    · simp
  | pre, t :: u :: ts, j + 1, h => by
    have ih := rowOf_field (pre ++ t ++ [',']) (u :: ts) j (by simpa using h)
    rw [rowOf]
    · have e : pre ++ (t ++ ',' :: rowOf (u :: ts)) = pre ++ t ++ [','] ++ rowOf (u :: ts) := by simp
      have l : (pre ++ t ++ [',']).length + 1 = pre.length + 1 + t.length + 1 := by simp; omega
      rw [e, List.map_cons, startsFrom, List.getD_cons_succ, List.getD_cons_succ, List.getD_cons_succ, ← l]
      exact ih
    · simp
  | pre, [t], j + 1, h => by simp at h

theorem decimal_length {n k : Nat} (hk : 1 ≤ k) : (decimal n).length ≤ k ↔ n < 10 ^ k := by
  constructor
  · intro h
    by_contra hc
    have := length_decimal (not_lt.mp hc)
    omega
  · intro h
    induction k generalizing n with
    | zero => omega
    | succ k ih =>
      rw [decimal]
      split
      · simp
      · rename_i h10
        rcases Nat.eq_zero_or_pos k with rfl | hk
        · omega
        · have := ih hk (n := n / 10) (by rw [pow_succ] at h; omega)
          simp only [List.length_append, List.length_singleton]
          omega

theorem digits_length (p n : Nat) : (digits p n).length = p := by
  induction p generalizing n with
  | zero => rfl
  | succ p ih => simp [digits, ih]

theorem digits_spec (p n : Nat) : value (digits p n) = n % 10 ^ p ∧ (digits p n).all isDigit := by
  induction p generalizing n with
  | zero => simp [digits, value, Nat.mod_one]
  | succ p ih =>
    obtain ⟨h1, h2⟩ := ih (n / 10)
    have hd := digit_char (Nat.mod_lt n (by decide : 10 > 0))
    constructor
    · rw [digits, value_append, h1]
      simp only [List.length_singleton, pow_one, value, List.foldl_cons, List.foldl_nil, hd]
      rw [pow_succ, Nat.mul_comm (10 ^ p) 10, Nat.mod_mul]
      omega
    · rw [digits, List.all_append, h2]
      simp only [List.all_cons, List.all_nil, Bool.and_true, isDigit, hd, Bool.true_and, Bool.and_eq_true, decide_eq_true_eq]
      have := Nat.mod_lt n (by decide : 10 > 0)
      omega

theorem number_value {l : List Char} (h : l.all isDigit) : number l = value l := by
  have key : ∀ (l : List Char) (n : Nat), l.all isDigit →
      l.foldl (fun (n : ℚ) c => 10 * n + ((c.toNat : ℚ) - 48)) (n : ℚ) = ((l.foldl (fun n c => 10 * n + (c.toNat - 48)) n : Nat) : ℚ) := by
    intro l
    induction l with
    | nil => intros; rfl
    | cons c l ih =>
      intro n hl
      rw [List.all_cons, Bool.and_eq_true] at hl
      have hc : 48 ≤ c.toNat := by
        have := hl.1
        simp only [isDigit, Bool.and_eq_true, decide_eq_true_eq] at this
        exact this.1
      rw [List.foldl_cons, List.foldl_cons, ← ih _ hl.2]
      congr 1
      push_cast [Nat.cast_sub hc]
      ring
  have := key l 0 h
  simpa [number, value] using this

theorem digit_of {c : Char} (h : isDigit c) : Digit c := by
  simp only [isDigit, Bool.and_eq_true, decide_eq_true_eq] at h
  exact ⟨h.1, h.2⟩

theorem pyRound_near (y : ℚ) : |(pyRound y : ℚ) - y| ≤ 1 / 2 := by
  have h1 := Int.floor_le y
  have h2 := Int.lt_floor_add_one y
  rw [abs_le]
  unfold pyRound
  split
  · constructor <;> linarith
  · split
    · push_cast; constructor <;> linarith
    · split
      · constructor <;> linarith
      · push_cast; constructor <;> linarith

theorem pyRound_nonneg {y : ℚ} (h : 0 ≤ y) : 0 ≤ pyRound y := by
  have := Int.floor_nonneg.mpr h
  unfold pyRound
  split
  · exact this
  · split
    · omega
    · split <;> omega

theorem pyRound_lt {y : ℚ} {N : ℤ} (hN : N % 2 = 0) : pyRound y < N ↔ y < N - 1 / 2 := by
  have h1 := Int.floor_le y
  have h2 := Int.lt_floor_add_one y
  rcases lt_trichotomy ⌊y⌋ (N - 1) with h | h | h
  · have hq : (⌊y⌋ : ℚ) + 2 ≤ N := by exact_mod_cast (by omega : ⌊y⌋ + 2 ≤ N)
    constructor
    · intro _; linarith
    · intro _
      unfold pyRound
      split
      · omega
      · split
        · omega
        · split <;> omega
  · have hq : (⌊y⌋ : ℚ) = N - 1 := by exact_mod_cast h
    unfold pyRound
    split
    · constructor
      · intro _; linarith
      · intro _; omega
    · split
      · constructor
        · intro _; omega
        · intro _; linarith
      · rw [if_neg (by omega)]
        constructor
        · intro _; omega
        · intro _; linarith
  · have hq : (N : ℚ) ≤ ⌊y⌋ := by exact_mod_cast (by omega : N ≤ ⌊y⌋)
    constructor
    · intro hp
      exfalso
      revert hp
      unfold pyRound
      split
      · omega
      · split
        · omega
        · split <;> omega
    · intro _; linarith

/-- The text of a number has six decimals and the nearest value. -/
theorem C115_text (w : Nat) (x : ℚ) : Six (pad w (fixed 6 x)) x := by
  have hn : 0 ≤ |x| * 10 ^ 6 := by positivity
  have hr := pyRound_nonneg hn
  have near := pyRound_near (|x| * 10 ^ 6)
  set n := (pyRound (|x| * 10 ^ 6)).toNat with hn'
  have hq : (n : ℚ) = pyRound (|x| * 10 ^ 6) := by
    rw [hn', ← Int.cast_natCast, Int.toNat_of_nonneg hr]
  refine ⟨w - (fixed 6 x).length, decimal (n / 10 ^ 6), digits 6 (n % 10 ^ 6), ?_, (value_decimal _).2.2, digits_length _ _, ?_, ?_⟩
  · simp only [pad, fixed, ← hn', List.append_assoc]
  · intro c hc
    rcases List.mem_append.mp hc with h | h
    · exact digit_of (List.all_eq_true.mp (value_decimal _).2.1 c h)
    · exact digit_of (List.all_eq_true.mp (digits_spec _ _).2 c h)
  · have hd : (decimal (n / 10 ^ 6) ++ digits 6 (n % 10 ^ 6)).all isDigit := by
      rw [List.all_append, (value_decimal _).2.1, (digits_spec _ _).2]; rfl
    have hv : value (decimal (n / 10 ^ 6) ++ digits 6 (n % 10 ^ 6)) = n := by
      rw [value_append, (value_decimal _).1, (digits_spec _ _).1, digits_length]
      omega
    rw [number_value hd, hv, hq]
    have e : (pyRound (|x| * 10 ^ 6) : ℚ) / 10 ^ 6 - |x| = ((pyRound (|x| * 10 ^ 6) : ℚ) - |x| * 10 ^ 6) / 10 ^ 6 := by field_simp
    rw [e, abs_div]
    have : |(10 : ℚ) ^ 6| = 10 ^ 6 := abs_of_pos (by positivity)
    rw [this]
    exact div_le_div_of_nonneg_right near (by positivity)

/-- It has exactly the width of its column if and only if the number lies within these limits. -/
theorem C115_fits {w : Nat} (hw : 9 ≤ w) (x : ℚ) : (pad w (fixed 6 x)).length = w ↔
    -(10 ^ (w - 8) - 1 / 2 / 10 ^ 6 : ℚ) < x ∧ x < 10 ^ (w - 7) - 1 / 2 / 10 ^ 6 := by
  have hn : 0 ≤ |x| * 10 ^ 6 := by positivity
  have hr := pyRound_nonneg hn
  have lt_iff : ∀ k, 1 ≤ k → ((pyRound (|x| * 10 ^ 6)).toNat / 10 ^ 6 < 10 ^ k ↔ |x| < 10 ^ k - 1 / 2 / 10 ^ 6) := by
    intro k hk
    have he : ((10 : ℤ) ^ (k + 6)) % 2 = 0 := by
      rw [show k + 6 = (k + 5) + 1 by omega, pow_succ]
      omega
    have h1 := pyRound_lt (y := |x| * 10 ^ 6) he
    rw [Nat.div_lt_iff_lt_mul (by positivity), ← pow_add]
    have h2 : (pyRound (|x| * 10 ^ 6)).toNat < 10 ^ (k + 6) ↔ pyRound (|x| * 10 ^ 6) < 10 ^ (k + 6) := by
      rw [← Int.ofNat_lt, Int.toNat_of_nonneg hr]
      push_cast
      rfl
    rw [h2, h1]
    push_cast
    rw [pow_add]
    constructor
    · intro h
      have : |x| * 10 ^ 6 < (10 ^ k - 1 / 2 / 10 ^ 6) * 10 ^ 6 := by
        calc _ < _ := h
          _ = _ := by field_simp
      exact lt_of_mul_lt_mul_right this (by positivity)
    · intro h
      calc _ < (10 ^ k - 1 / 2 / 10 ^ 6) * 10 ^ 6 := mul_lt_mul_of_pos_right h (by positivity)
        _ = _ := by field_simp
  have hlen : (pad w (fixed 6 x)).length = w ↔ (fixed 6 x).length ≤ w := by
    simp only [pad, List.length_append, List.length_replicate]
    omega
  have hp : ∀ k : Nat, (0 : ℚ) < 10 ^ k - 1 / 2 / 10 ^ 6 := by
    intro k
    have : (1 : ℚ) ≤ 10 ^ k := one_le_pow₀ (by norm_num)
    norm_num at this ⊢
    linarith
  rw [hlen]
  by_cases hx : x < 0
  · have hf : (fixed 6 x).length = 8 + (decimal ((pyRound (|x| * 10 ^ 6)).toNat / 10 ^ 6)).length := by
      simp only [fixed, if_pos hx, List.length_append, List.length_cons, List.length_nil, digits_length]
      omega
    rw [hf, show 8 + (decimal ((pyRound (|x| * 10 ^ 6)).toNat / 10 ^ 6)).length ≤ w ↔
      (decimal ((pyRound (|x| * 10 ^ 6)).toNat / 10 ^ 6)).length ≤ w - 8 by omega, decimal_length (by omega), lt_iff _ (by omega), abs_of_neg hx]
    have := hp (w - 7)
    constructor
    · intro h; exact ⟨by linarith, by linarith⟩
    · intro h; linarith [h.1]
  · have hf : (fixed 6 x).length = 7 + (decimal ((pyRound (|x| * 10 ^ 6)).toNat / 10 ^ 6)).length := by
      simp only [fixed, if_neg hx, List.length_append, List.length_cons, List.length_nil, digits_length]
      omega
    rw [hf, show 7 + (decimal ((pyRound (|x| * 10 ^ 6)).toNat / 10 ^ 6)).length ≤ w ↔
      (decimal ((pyRound (|x| * 10 ^ 6)).toNat / 10 ^ 6)).length ≤ w - 7 by omega, decimal_length (by omega), lt_iff _ (by omega),
      abs_of_nonneg (not_lt.mp hx)]
    have := hp (w - 8)
    constructor
    · intro h; exact ⟨by linarith, h⟩
    · intro h; exact h.2

example : 9 ≤ 14 ∧ pad 14 (fixed 6 (-12345 / 7)) = "  -1763.571429".toList := by decide +kernel

theorem getD_in {α : Type} (d : α) {l : List α} {i : Nat} (h : i < l.length) : l.getD i d = l[i] := by
  simp [List.getD, h]

theorem rowOf_comma : ∀ (pre : List Char) (ts : List (List Char)) (j : Nat), j + 1 < ts.length →
    (pre ++ rowOf ts).getD ((startsFrom (pre.length + 1) (ts.map List.length)).getD j 0 + (ts.map List.length).getD j 0 - 1) ' ' = ','
  | pre, t :: u :: ts, 0, _ => by
    rw [rowOf]
    · have e : pre ++ (t ++ ',' :: rowOf (u :: ts)) = (pre ++ t) ++ ',' :: rowOf (u :: ts) := by simp
      have l : (startsFrom (pre.length + 1) ((t :: u :: ts).map List.length)).getD 0 0 + ((t :: u :: ts).map List.length).getD 0 0 - 1 =
          (pre ++ t).length := by
        simp [startsFrom]
      rw [e, l]
      simp
    · simp
  | pre, t :: u :: ts, j + 1, h => by
    have ih := rowOf_comma (pre ++ t ++ [',']) (u :: ts) j (by simpa using h)
    rw [rowOf]
    · have e : pre ++ (t ++ ',' :: rowOf (u :: ts)) = pre ++ t ++ [','] ++ rowOf (u :: ts) := by simp
      have l : (pre ++ t ++ [',']).length + 1 = pre.length + 1 + t.length + 1 := by simp; omega
      rw [e, List.map_cons, startsFrom, List.getD_cons_succ, List.getD_cons_succ, ← l]
      exact ih
    · simp
  | pre, [], j, h => by simp at h
  | pre, [t], j, h => by simp at h

theorem rowOf_end : ∀ ts : List (List Char), ∃ r, rowOf ts = r ++ ['\r', '\n']
  | [] => ⟨[], rfl⟩
  | [t] => ⟨t, rfl⟩
  | t :: u :: ts => by
    obtain ⟨r, h⟩ := rowOf_end (u :: ts)
    refine ⟨t ++ ',' :: r, ?_⟩
    rw [rowOf]
    · rw [h]; simp
    · simp

theorem record_cols (k : Series) : recordBytes (labelFormats k) =
    .ok (((cols k).map (·.1)).sum + ((labelFormats k).length - 1) + 2, (cols k).map (·.1), startsFrom 1 ((cols k).map (·.1))) := by
  have := starts_eq 1 ((cols k).map (·.1))
  simp only [recordBytes, widths_cols, bind, Except.bind, pure, Except.pure, cumsum, Nat.zero_add, this]

/-- The letters of the label are those of the table. -/
theorem letters (k : Series) : (labelFormats k).length = (cols k).length ∧ ∀ j < (cols k).length,
    (((cols k).getD j (0, false)).2 = false ↔ 'F' ∈ (labelFormats k).getD j []) ∧
    (((cols k).getD j (0, false)).2 = true ↔ 'E' ∈ (labelFormats k).getD j []) ∧
    9 ≤ ((cols k).getD j (0, false)).1 ∧ (((cols k).getD j (0, false)).2 = true → 14 ≤ ((cols k).getD j (0, false)).1) := by
  cases k <;> decide +kernel

theorem cols_written {k : Series} (hk : k ≠ .tauUl) : (cols k).length = (written k).length ∧ cols k ≠ [] := by
  cases k <;> first | exact absurd rfl hk | decide

/-- Lines are as the label says, for every kind of file except that of profiles with uplink and if the label's columns can hold the numbers: the
line has the length of a record, each column has the place and the width of the label and shows its number, commas stand between the columns, and
the line ends with `\r\n`. -/
theorem C115_line_partial {k : Series} (hk : k ≠ .tauUl) : ∃ n bytes starts, recordBytes (labelFormats k) = .ok (n, bytes, starts) ∧
    bytes.length = (written k).length ∧ starts.length = (written k).length ∧ (labelFormats k).length = (written k).length ∧
    ∀ (sci : Nat → ℚ → List Char) (str : ℚ → List Char) (val : String → ℚ), (∀ x, (sci 6 x).length ≤ 14) →
      (∀ j < (written k).length, 'F' ∈ (labelFormats k).getD j [] → -(10 ^ (bytes.getD j 0 - 8) - 1 / 2 / 10 ^ 6 : ℚ) < val ((written k).getD j "") ∧
        val ((written k).getD j "") < 10 ^ (bytes.getD j 0 - 7) - 1 / 2 / 10 ^ 6) →
      ∃ row, line sci str k val = .ok row ∧ row.length = n ∧ row.drop (n - 2) = ['\r', '\n'] ∧
        ∀ j < (written k).length,
          ('F' ∈ (labelFormats k).getD j [] ∧ Six (Spec.field row (starts.getD j 0) (bytes.getD j 0)) (val ((written k).getD j "")) ∨
          'E' ∈ (labelFormats k).getD j [] ∧ ∃ m, Spec.field row (starts.getD j 0) (bytes.getD j 0) =
            List.replicate m ' ' ++ sci 6 (val ((written k).getD j ""))) ∧
          (j + 1 < (written k).length → row.getD (starts.getD j 0 + bytes.getD j 0 - 1) ' ' = ',') := by
  obtain ⟨hc, hne⟩ := cols_written hk
  obtain ⟨hl, hlet⟩ := letters k
  have hsl : ∀ (s : Nat) (ws : List Nat), (startsFrom s ws).length = ws.length := by
    intro s ws
    induction ws generalizing s with
    | nil => rfl
    | cons w ws ih => simp [startsFrom, ih]
  refine ⟨_, _, _, record_cols k, by simp [hc], by simp [hsl, hc], by rw [hl, hc], ?_⟩
  intro sci str val hs hf
  set ts := List.zipWith (text sci) (cols k) ((written k).map val) with hts
  have htl : ts.length = (written k).length := by simp [hts, hc]
  have hget : ∀ j < (written k).length, ts.getD j [] = text sci ((cols k).getD j (0, false)) (val ((written k).getD j "")) := by
    intro j hj
    rw [getD_in [] (by omega : j < ts.length), getD_in (0, false) (by omega : j < (cols k).length), getD_in "" hj]
    simp [hts]
  have hbyte : ∀ j < (written k).length, ((cols k).map (·.1)).getD j 0 = ((cols k).getD j (0, false)).1 := by
    intro j hj
    rw [getD_in 0 (by simp; omega), getD_in (0, false) (by omega : j < (cols k).length)]
    simp
  have hwid : ∀ j < (written k).length, (ts.getD j []).length = ((cols k).getD j (0, false)).1 := by
    intro j hj
    obtain ⟨h1, h2, h3, h4⟩ := hlet j (by omega)
    rw [hget j hj, text]
    cases hb : ((cols k).getD j (0, false)).2
    · have := hf j hj (h1.mp hb)
      rw [hbyte j hj] at this
      rw [if_neg (by simp)]
      exact (C115_fits h3 _).mpr this
    · rw [if_pos rfl]
      have a := hs (val ((written k).getD j ""))
      have b := h4 hb
      simp only [pad, List.length_append, List.length_replicate]
      omega
  have hlens : ts.map List.length = (cols k).map (·.1) := by
    apply List.ext_getElem
    · simp [htl, hc]
    · intro j h1 h2
      have hj : j < (written k).length := by simpa [htl] using h1
      have := hwid j hj
      rw [getD_in [] (by omega : j < ts.length), getD_in (0, false) (by omega : j < (cols k).length)] at this
      simpa using this
  have hrow : line sci str k val = .ok (rowOf ts) := by
    simp only [line, pieces_cols]
    have := percent_build sci str (cols k) ((written k).map val) (by simp [hc])
    rw [List.map_map] at this
    exact this
  have hlen : (rowOf ts).length = ((cols k).map (·.1)).sum + ((labelFormats k).length - 1) + 2 := by
    rw [rowOf_length ts (by intro h; rw [h] at htl; have := List.length_pos_iff.mpr hne; simp at htl; omega), hlens, htl, hl, hc]
  refine ⟨rowOf ts, hrow, hlen, ?_, ?_⟩
  · obtain ⟨r, hr⟩ := rowOf_end ts
    rw [← hlen, hr]
    simp
  · intro j hj
    obtain ⟨h1, h2, h3, h4⟩ := hlet j (by omega)
    have fld := rowOf_field [] ts j (by omega)
    rw [hlens, hget j hj] at fld
    simp only [List.nil_append, List.length_nil, Nat.zero_add] at fld
    refine ⟨?_, ?_⟩
    · rw [fld, text]
      cases hb : ((cols k).getD j (0, false)).2
      · left
        refine ⟨h1.mp hb, ?_⟩
        rw [if_neg (by simp)]
        exact C115_text _ _
      · right
        refine ⟨h2.mp hb, ?_⟩
        rw [if_pos rfl, pad]
        exact ⟨_, rfl⟩
    · intro hj1
      have := rowOf_comma [] ts j (by omega)
      rw [hlens] at this
      simpa using this

/-- Such numbers exist: a line of the calibration file. -/
example : Series.cal ≠ .tauUl ∧ (line (fun _ _ => []) (fun _ => []) .cal fun c => if c = "t_oet_spm" then 37800 else if c = "f_sky_hz" then 8427222034 + 1 / 3
      else if c = "f_offset_fit" then -5 / 8 else 20000) =
    .ok "  37800.000000,   8427222034.333333, -0.625000,  20000.000000\r\n".toList ∧
    recordBytes (labelFormats .cal) = .ok (63, [14, 20, 10, 14], [1, 16, 37, 48]) := by decide +kernel

theorem sum_eq_of_le : ∀ {a b : List Nat}, a.length = b.length → (∀ j < a.length, b.getD j 0 ≤ a.getD j 0) → a.sum = b.sum → a = b
  | [], [], _, _, _ => rfl
  | x :: a, y :: b, hl, hle, hs => by
    have h0 : y ≤ x := hle 0 (by simp)
    have ht : ∀ j < a.length, b.getD j 0 ≤ a.getD j 0 := fun j hj => by
      have := hle (j + 1) (by simpa using hj)
      simpa using this
    have hsum : b.sum ≤ a.sum := by
      have hl' : a.length = b.length := by simpa using hl
      clear hs hle hl h0
      induction a generalizing b with
      | nil => cases b with
        | nil => simp
        | cons => simp at hl'
      | cons u a ih => cases b with
        | nil => simp at hl'
        | cons v b =>
          have h0 : v ≤ u := ht 0 (by simp)
          have := ih (b := b) (fun j hj => by have := ht (j + 1) (by simpa using hj); simpa using this) (by simpa using hl')
          simp only [List.sum_cons]
          omega
    simp only [List.sum_cons] at hs
    have := sum_eq_of_le (a := a) (b := b) (by simpa using hl) ht (by omega)
    rw [this, show x = y by omega]

/-- If one number is too wide for its column then the line is not as long as a record. -/
theorem C115_wide {k : Series} (hk : k ≠ .tauUl) {sci : Nat → ℚ → List Char} {str : ℚ → List Char} {val : String → ℚ} {n : Nat}
    {bytes starts : List Nat} {row : List Char} (hr : recordBytes (labelFormats k) = .ok (n, bytes, starts)) (hrow : line sci str k val = .ok row)
    {j : Nat} (hj : j < (written k).length) (hF : 'F' ∈ (labelFormats k).getD j [])
    (hx : val ((written k).getD j "") ≤ -(10 ^ (bytes.getD j 0 - 8) - 1 / 2 / 10 ^ 6 : ℚ) ∨
      10 ^ (bytes.getD j 0 - 7) - 1 / 2 / 10 ^ 6 ≤ val ((written k).getD j "")) : n < row.length := by
  obtain ⟨hc, hne⟩ := cols_written hk
  obtain ⟨hl, hlet⟩ := letters k
  rw [record_cols] at hr
  obtain ⟨rfl, rfl, rfl⟩ : _ = n ∧ _ = bytes ∧ _ = starts := by simpa using hr
  set ts := List.zipWith (text sci) (cols k) ((written k).map val) with hts
  have htl : ts.length = (written k).length := by simp [hts, hc]
  have hrow' : line sci str k val = .ok (rowOf ts) := by
    simp only [line, pieces_cols]
    have := percent_build sci str (cols k) ((written k).map val) (by simp [hc])
    rw [List.map_map] at this
    exact this
  rw [hrow'] at hrow
  obtain rfl : rowOf ts = row := by simpa using hrow
  have hget : ∀ j < (written k).length, ts.getD j [] = text sci ((cols k).getD j (0, false)) (val ((written k).getD j "")) := by
    intro j hj
    rw [getD_in [] (by omega : j < ts.length), getD_in (0, false) (by omega : j < (cols k).length), getD_in "" hj]
    simp [hts]
  have hbyte : ∀ j < (written k).length, ((cols k).map (·.1)).getD j 0 = ((cols k).getD j (0, false)).1 := by
    intro j hj
    rw [getD_in 0 (by simp; omega), getD_in (0, false) (by omega : j < (cols k).length)]
    simp
  have hlenj : ∀ j < (written k).length, (ts.map List.length).getD j 0 = (ts.getD j []).length := by
    intro j hj
    rw [getD_in 0 (by simp; omega), getD_in [] (by omega : j < ts.length)]
    simp
  have hge : ∀ j < (ts.map List.length).length, ((cols k).map (·.1)).getD j 0 ≤ (ts.map List.length).getD j 0 := by
    intro j hj
    have hj' : j < (written k).length := by simpa [htl] using hj
    rw [hlenj j hj', hbyte j hj', hget j hj', text, pad]
    simp only [List.length_append, List.length_replicate]
    omega
  have hsum : ((cols k).map (·.1)).sum ≤ (ts.map List.length).sum := by
    have key : ∀ {a b : List Nat}, a.length = b.length → (∀ j < a.length, b.getD j 0 ≤ a.getD j 0) → b.sum ≤ a.sum := by
      intro a
      induction a with
      | nil => intro b h _; cases b with
        | nil => simp
        | cons => simp at h
      | cons u a ih => intro b h hh; cases b with
        | nil => simp at h
        | cons v b =>
          have h0 : v ≤ u := hh 0 (by simp)
          have := ih (b := b) (by simpa using h) (fun j hj => by have := hh (j + 1) (by simpa using hj); simpa using this)
          simp only [List.sum_cons]
          omega
    exact key (by simp [htl, hc]) hge
  have hneq : (ts.map List.length).sum ≠ ((cols k).map (·.1)).sum := by
    intro h
    have heq := sum_eq_of_le (by simp [htl, hc]) hge h
    have h1 := hlenj j hj
    obtain ⟨g1, g2, g3, g4⟩ := hlet j (by omega)
    have hb := g1.mpr hF
    rw [heq, hbyte j hj, hget j hj, text, hb, if_neg (by simp)] at h1
    have := (C115_fits g3 _).mp h1.symm
    rw [hbyte j hj] at hx
    rcases hx with h | h <;> linarith [this.1, this.2]
  rw [rowOf_length ts (by intro h; rw [h] at htl; have := List.length_pos_iff.mpr hne; simp at htl; omega), htl, hl, hc]
  omega

/-- A frequency offset of -100 Hz is too wide for the file of calibration. -/
theorem C115_overflow_false : ∃ row, line (fun _ _ => []) (fun _ => []) .cal (fun c => if c = "f_offset_fit" then -100 else 0) = .ok row ∧
    recordBytes (labelFormats .cal) = .ok (63, [14, 20, 10, 14], [1, 16, 37, 48]) ∧ row.length = 64 ∧
    Spec.field row 37 10 = "-100.00000".toList ∧ Spec.field row 48 14 = ",      0.00000".toList :=
  ⟨"      0.000000,            0.000000,-100.000000,      0.000000\r\n".toList, by decide +kernel, by decide +kernel, by decide +kernel,
    by decide +kernel, by decide +kernel⟩

example : Series.cal ≠ .tauUl ∧ 2 < (written .cal).length ∧ 'F' ∈ (labelFormats .cal).getD 2 [] ∧
    (-100 : ℚ) ≤ -(10 ^ (10 - 8) - 1 / 2 / 10 ^ 6 : ℚ) := by
  refine ⟨by decide, by decide, by decide +kernel, by norm_num⟩

/-- A file of profiles with uplink can never be written: there are more numbers than conversions. -/
theorem C115_tauUl_false (sci : Nat → ℚ → List Char) (str : ℚ → List Char) (val : String → ℚ) : line sci str .tauUl val = .error .type := by
  simp only [line, pieces_cols]
  have := percent_more sci str (cols .tauUl) ((written .tauUl).map val) (by rw [List.length_map]; decide)
  rw [List.map_map] at this
  exact this

/-- Names and units of the labels are those of the columns, in the same order, except for the azimuth of the DLP label and the units of the
corrections of the radius. -/
theorem C115_names_partial {k : Series} (hk : k ≠ .tauUl) : (names k).length = (written k).length ∧
    ∀ j < (written k).length, ∃ e ∈ nameOf, e.1 = (written k).getD j "" ∧
      (((names k).getD j ("", "")).1 = e.2.1 ∨ (k = .dlp ∨ k = .dlpUl) ∧ e.1 = "phi_ora_deg") ∧
      (((names k).getD j ("", "")).2 = e.2.2 ∨ e.1 = "rho_corr_pole_km" ∨ e.1 = "rho_corr_timing_km") := by
  cases k <;> first | exact absurd rfl hk | decide +kernel

/-- The exceptions are real. -/
theorem C115_names_false : (names .dlp).getD 4 ("", "") = ("OBSERVED_RING_AZIMUTH", "DEGREE") ∧ (written .dlp).getD 4 "" = "phi_ora_deg" ∧
    (names .tau).getD 4 ("", "") = ("OBSERVED RING AZIMUTH", "DEGREE") ∧
    ((names .dlp).getD 1 ("", "")).2 = "N/A" ∧ (written .dlp).getD 1 "" = "rho_corr_pole_km" := by decide +kernel

end Verif.Pds
