import Verif.Model.Snr
import Verif.Props.C114

/-!
# C131 Signal-to-noise ratio of a recording
-/
namespace Verif.Thr
open Verif.Rsr Verif.Out Verif.Pds

namespace Spec

/-- A row of the table: directories, name of the file, text of the number. -/
structure Row where
  dirs : List (List Char)
  file : List Char
  value : List Char

/-- Its text: directories with slashes, name, comma, number. -/
def Row.text (r : Row) : List Char := (r.dirs.map fun d => d ++ ['/']).flatten ++ (r.file ++ ',' :: r.value)

/-- A row whose directories and number are shorter than the name and whose file is not longer. -/
def Row.Fits (n : Nat) (r : Row) : Prop :=
  (∀ d ∈ r.dirs, d.length < n ∧ ',' ∉ d) ∧ r.file.length ≤ n ∧ ',' ∉ r.file ∧ r.value.length < n

end Spec
open Spec

/-- The rows belong to the same recording: the names agree apart from case. -/
def sameName (name : List Char) (r : Row) : Bool := decide (r.file.map upperC = name.map upperC)

/-! ### Substrings -/

theorem prefix_before {c : Char} {p u b : List Char} (hc : c ∉ p) (h : p <+: u ++ c :: b) : p <+: u := by
  by_cases hl : p.length ≤ u.length
  · exact List.prefix_of_prefix_length_le h (List.prefix_append _ _) hl
  · exfalso
    have hu : u ++ [c] <+: u ++ c :: b := ⟨b, by simp⟩
    have := List.prefix_of_prefix_length_le hu h (by simp; omega)
    exact hc (this.subset (by simp))

theorem infix_sep {c : Char} {p b : List Char} (hc : c ∉ p) : ∀ a : List Char, p <:+: a ++ c :: b ↔ p <:+: a ∨ p <:+: b
  | [] => by
    rw [List.nil_append, List.infix_cons_iff]
    constructor
    · rintro (h | h)
      · have := prefix_before (u := []) hc h
        exact Or.inl this.isInfix
      · exact Or.inr h
    · rintro (h | h)
      · have : p = [] := by simpa using h
        subst this
        exact Or.inl List.nil_prefix
      · exact Or.inr h
  | x :: a => by
    rw [List.cons_append, List.infix_cons_iff, infix_sep hc a, List.infix_cons_iff (l₂ := a)]
    constructor
    · rintro (h | h | h)
      · exact Or.inl (Or.inl (prefix_before (u := x :: a) hc h))
      · exact Or.inl (Or.inr h)
      · exact Or.inr h
    · rintro ((h | h) | h)
      · exact Or.inl (h.trans (List.prefix_append (x :: a) (c :: b)))
      · exact Or.inr (Or.inl h)
      · exact Or.inr (Or.inr h)

theorem infix_short {p s : List Char} (h : s.length < p.length) : ¬p <:+: s := fun hi => by
  have := hi.length_le
  omega

theorem infix_same {p s : List Char} (h : s.length ≤ p.length) : p <:+: s ↔ s = p :=
  ⟨fun hi => (hi.eq_of_length (le_antisymm hi.length_le h)).symm, fun e => e ▸ List.infix_refl _⟩

theorem upper_avoid {c : Char} (hc : c.toNat < 65) {l : List Char} (h : c ∉ l) : c ∉ l.map upperC := by
  intro hm
  obtain ⟨d, hd, e⟩ := List.mem_map.1 hm
  unfold upperC at e
  split at e
  · rename_i hr
    rw [← e] at hc
    have : (Char.ofNat (d.toNat - 32)).toNat = d.toNat - 32 := by
      have : ∀ n, 97 ≤ n → n ≤ 122 → (Char.ofNat (n - 32)).toNat = n - 32 := by decide +kernel
      exact this _ hr.1 hr.2
    omega
  · exact h (e ▸ hd)

theorem upper_fixed {c : Char} (hc : c.toNat < 97) : upperC c = c := by
  unfold upperC
  rw [if_neg (by omega)]

/-- What the test finds in a row: only the name of the file counts. -/
theorem matches_row {name : List Char} (hs : '/' ∉ name) (hk : ',' ∉ name) {r : Row} (hr : r.Fits name.length) :
    matches_ name r.text = sameName name r := by
  obtain ⟨hd, hf, -, hv⟩ := hr
  have hs' : '/' ∉ name.map upperC := upper_avoid (by decide) hs
  have hk' : ',' ∉ name.map upperC := upper_avoid (by decide) hk
  have key : ∀ dirs : List (List Char), (∀ d ∈ dirs, d.length < name.length ∧ ',' ∉ d) →
      (name.map upperC <:+: ((dirs.map fun d => d ++ ['/']).flatten ++ (r.file ++ ',' :: r.value)).map upperC ↔ r.file.map upperC = name.map upperC) := by
    intro dirs
    induction dirs with
    | nil =>
      intro _
      rw [List.map_nil, List.flatten_nil, List.nil_append, List.map_append, List.map_cons, upper_fixed (c := ',') (by decide), infix_sep hk']
      rw [infix_same (by simpa using hf)]
      exact or_iff_left (infix_short (by simpa using hv))
    | cons d dirs ih =>
      intro hd
      have e : ((List.map (fun d => d ++ ['/']) (d :: dirs)).flatten ++ (r.file ++ ',' :: r.value)).map upperC =
          d.map upperC ++ '/' :: ((dirs.map fun d => d ++ ['/']).flatten ++ (r.file ++ ',' :: r.value)).map upperC := by
        simp [upper_fixed (c := '/') (by decide)]
      rw [e, infix_sep hs', ih fun x hx => hd x (List.mem_cons_of_mem _ hx)]
      exact or_iff_right (infix_short (by simpa using (hd d (by simp)).1))
  unfold matches_ sameName
  exact decide_eq_decide.2 (key r.dirs hd)

theorem after_comma {a b : List Char} (h : ',' ∉ a) : ((a ++ ',' :: b).dropWhile fun c => decide (c ≠ ',')).drop 1 = b := by
  induction a with
  | nil => simp
  | cons x a ih =>
    have hx : x ≠ ',' := fun e => h (by simp [e])
    rw [List.cons_append, List.dropWhile_cons, if_pos (by simpa using hx)]
    exact ih fun hm => h (List.mem_cons_of_mem _ hm)

theorem number_row {α : Type} (num : List Char → Option α) {n : Nat} {r : Row} (hr : r.Fits n) :
    number num r.text = match num r.value with | some v => .ok v | none => .error .value := by
  obtain ⟨hd, -, hc, -⟩ := hr
  have h : ',' ∉ (r.dirs.map fun d => d ++ ['/']).flatten ++ r.file := by
    rw [List.mem_append]
    rintro (hm | hm)
    · obtain ⟨l, hl, hm⟩ := List.mem_flatten.1 hm
      obtain ⟨d, hdm, rfl⟩ := List.mem_map.1 hl
      rcases List.mem_append.1 hm with hm | hm
      · exact (hd d hdm).2 hm
      · simp at hm
    · exact hc hm
  have e : r.text = ((r.dirs.map fun d => d ++ ['/']).flatten ++ r.file) ++ ',' :: r.value := by
    rw [Row.text, List.append_assoc]
  unfold number
  rw [e, after_comma h, if_pos (by simp)]
  cases num r.value <;> rfl

/-- **C131**, the lookup: the row of the recording is found, and no other one. -/
theorem C131_found_partial {α : Type} (num : List Char → Option α) {name : List Char} (hs : '/' ∉ name) (hk : ',' ∉ name) {rows : List Row}
    (hr : ∀ r ∈ rows, r.Fits name.length) :
    snrLookup num name (rows.map Row.text) =
      match rows.find? (sameName name) with
      | none => .ok none
      | some r => match num r.value with
        | some v => .ok (some v)
        | none => .error .value := by
  have e : (rows.map Row.text).find? (matches_ name) = (rows.find? (sameName name)).map Row.text := by
    rw [List.find?_map]
    congr 1
    induction rows with
    | nil => rfl
    | cons r rows ih =>
      rw [List.find?_cons, List.find?_cons]
      have := matches_row hs hk (hr r (by simp))
      simp only [Function.comp_apply, this]
      rw [ih fun x hx => hr x (List.mem_cons_of_mem _ hx)]
  unfold snrLookup
  rw [e]
  cases h : rows.find? (sameName name) with
  | none => rfl
  | some r =>
    have hm := List.mem_of_find?_eq_some h
    simp only [Option.map_some, number_row num (hr r hm)]
    cases num r.value <;> rfl

/-- **C131**, the value: with one number per recording it does not matter which of its rows is found. -/
theorem C131_value_partial {α : Type} (num : List Char → Option α) {name : List Char} (hs : '/' ∉ name) (hk : ',' ∉ name) {rows : List Row}
    (hr : ∀ r ∈ rows, r.Fits name.length) {r : Row} (hm : r ∈ rows) (hn : r.file.map upperC = name.map upperC) {v : α} (hv : num r.value = some v)
    (hu : ∀ a ∈ rows, ∀ b ∈ rows, a.file.map upperC = b.file.map upperC → a.value = b.value) :
    snrLookup num name (rows.map Row.text) = .ok (some v) := by
  rw [C131_found_partial num hs hk hr]
  cases h : rows.find? (sameName name) with
  | none =>
    exact absurd (List.find?_eq_none.1 h r hm) (by simp [sameName, hn])
  | some q =>
    have hq := List.find?_some h
    have hqn : q.file.map upperC = name.map upperC := by simpa [sameName] using hq
    have := hu q (List.mem_of_find?_eq_some h) r hm (hqn.trans hn.symm)
    simp only [this, hv]

/-- **C131**, a recording that is not in the table has no ratio: NaN. -/
theorem C131_absent {α : Type} (num : List Char → Option α) {name : List Char} (hs : '/' ∉ name) (hk : ',' ∉ name) {rows : List Row}
    (hr : ∀ r ∈ rows, r.Fits name.length) (hn : ∀ r ∈ rows, r.file.map upperC ≠ name.map upperC) :
    snrLookup num name (rows.map Row.text) = .ok none := by
  rw [C131_found_partial num hs hk hr, List.find?_eq_none.2 (by intro r h; simpa [sameName] using hn r h)]

/-! ### The name in the label -/

theorem quoted_line (name : List Char) : quoted (ljust 32 sourceKey ++ ['=', ' '] ++ ('"' :: name ++ ['"'])) = name := by
  have e : ljust 32 sourceKey ++ ['=', ' '] ++ ('"' :: name ++ ['"']) = (ljust 32 sourceKey ++ ['=', ' ', '"']) ++ (name ++ ['"']) := by simp
  unfold quoted
  rw [e, List.drop_left' (by decide), List.dropLast_concat]

/-- **C131**, the label: the name that the writer of CAL labels puts there is read back. -/
theorem C131_label (file : List Char) {before after : List (List Char)} (hb : ∀ l ∈ before, ¬sourceKey <:+: l) :
    rsrName (before ++ (ljust 32 sourceKey ++ ['=', ' '] ++ ('"' :: file.map upperC ++ ['"'])) :: after) = file.map upperC ∧
      statement 32 sourceKey ('"' :: file.map upperC ++ ['"']) = (ljust 32 sourceKey ++ ['=', ' '] ++ ('"' :: file.map upperC ++ ['"'])) ++ cr := by
  refine ⟨?_, rfl⟩
  have hk : sourceKey <:+: ljust 32 sourceKey ++ ['=', ' '] ++ ('"' :: file.map upperC ++ ['"']) :=
    ⟨[], List.replicate (32 - sourceKey.length) ' ' ++ ['=', ' '] ++ ('"' :: file.map upperC ++ ['"']), by simp [ljust]⟩
  unfold rsrName
  rw [List.find?_append, List.find?_eq_none.2 (by intro l hl; simpa using hb l hl), List.find?_cons, decide_eq_true hk]
  exact quoted_line _

theorem upper_map_twice (l : List Char) : (l.map upperC).map upperC = l.map upperC := by
  rw [List.map_map]
  exact List.map_congr_left fun c _ => upper_twice c

/-- **C131**, from the recording to its ratio through the label. -/
theorem C131_chain_partial {α : Type} (num : List Char → Option α) {file : List Char} (hs : '/' ∉ file) (hk : ',' ∉ file) {rows : List Row}
    (hr : ∀ r ∈ rows, r.Fits file.length) {r : Row} (hm : r ∈ rows) (hn : r.file.map upperC = file.map upperC) {v : α} (hv : num r.value = some v)
    (hu : ∀ a ∈ rows, ∀ b ∈ rows, a.file.map upperC = b.file.map upperC → a.value = b.value)
    {before after : List (List Char)} (hb : ∀ l ∈ before, ¬sourceKey <:+: l) :
    snrLookup num (rsrName (before ++ (ljust 32 sourceKey ++ ['=', ' '] ++ ('"' :: file.map upperC ++ ['"'])) :: after)) (rows.map Row.text) =
      .ok (some v) := by
  rw [(C131_label file hb).1]
  refine C131_value_partial num (upper_avoid (by decide) hs) (upper_avoid (by decide) hk) (fun q hq => ?_) hm ?_ hv hu
  · rw [List.length_map]; exact hr q hq
  · rw [hn, upper_map_twice]

/-- The first rows of tables/snr0_rsr_all_files_before_USO_failure.csv 1-3. -/
def demoRows : List Row :=
  [⟨[], "rsr_filename".toList, "snr0 (dBHz)".toList⟩,
   ⟨["co-s-rss-1-sroc1-v10".toList, "cors_0727".toList, "SROC1_123".toList, "RSR".toList], "S10SROE2005123_0740NNNK34RD.1B1".toList, " 47.9636".toList⟩,
   ⟨["co-s-rss-1-sroc1-v10".toList, "cors_0727".toList, "SROC1_123".toList, "RSR".toList], "S10SROE2005123_0740NNNS43RD.2B1".toList, " 40.9549".toList⟩]

/-- A stand-in for `float` on the texts of these rows. -/
def demoNum (s : List Char) : Option Nat :=
  if s = " 47.9636".toList then some 479636 else if s = " 40.9549".toList then some 409549 else none

/-- **C131** is false of an empty name, as a short line of a label gives it: the header of the table matches, and its text is no number. -/
theorem C131_empty_false : rsrName ["SOURCE_PRODUCT_ID = \"S10SROE2005\"".toList] = [] ∧
    snrLookup demoNum [] (demoRows.map Row.text) = .error .value := by
  decide +kernel

/-- **C131** is false of a label aligned at another column: two columns further right no row matches. -/
theorem C131_column_false :
    rsrName [ljust 34 sourceKey ++ "= \"S10SROE2005123_0740NNNK34RD.1B1\"".toList] = " \"S10SROE2005123_0740NNNK34RD.1B1".toList ∧
    snrLookup demoNum " \"S10SROE2005123_0740NNNK34RD.1B1".toList (demoRows.map Row.text) = .ok none := by
  decide +kernel

/-- **C131** is false of a name that is part of another one: the first row that contains it counts, here the one of another station. -/
theorem C131_part_false : snrLookup demoNum "S10SROE2005123_0740NNN".toList (demoRows.map Row.text) = .ok (some 479636) ∧
    snrLookup demoNum "RSR".toList (demoRows.map Row.text) = .error .value := by
  decide +kernel

/-! ### Examples -/

theorem demoRows_fit : ∀ r ∈ demoRows, r.Fits 31 := by
  intro r hr
  simp only [demoRows, List.mem_cons, List.not_mem_nil, or_false] at hr
  rcases hr with rfl | rfl | rfl <;> (unfold Row.Fits; decide +kernel)

example : snrLookup demoNum (rsrName (["PRODUCER_ID = \"TC2017\"".toList] ++
    (ljust 32 sourceKey ++ ['=', ' '] ++ ('"' :: "s10sroe2005123_0740nnns43rd.2b1".toList.map upperC ++ ['"'])) :: [])) (demoRows.map Row.text) =
    .ok (some 409549) :=
  C131_chain_partial demoNum (file := "s10sroe2005123_0740nnns43rd.2b1".toList) (by decide +kernel) (by decide +kernel) demoRows_fit
    (r := ⟨["co-s-rss-1-sroc1-v10".toList, "cors_0727".toList, "SROC1_123".toList, "RSR".toList], "S10SROE2005123_0740NNNS43RD.2B1".toList, " 40.9549".toList⟩)
    (by simp [demoRows]) (by decide +kernel) (by decide +kernel)
    (by
      intro a ha b hb
      simp only [demoRows, List.mem_cons, List.not_mem_nil, or_false] at ha hb
      rcases ha with rfl | rfl | rfl <;> rcases hb with rfl | rfl | rfl <;> decide +kernel)
    (by
      intro l hl
      rw [List.mem_singleton] at hl
      subst hl
      decide +kernel)

example : snrLookup demoNum "S10SROE2005123_0740NNNX43RD.2A1".toList (demoRows.map Row.text) = .ok none :=
  C131_absent demoNum (by decide +kernel) (by decide +kernel) demoRows_fit (by
    intro r hr
    simp only [demoRows, List.mem_cons, List.not_mem_nil, or_false] at hr
    rcases hr with rfl | rfl | rfl <;> decide +kernel)

end Verif.Thr
