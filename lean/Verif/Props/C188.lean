import Verif.Model.SysTools
import Verif.Props.C141
import Verif.Props.C164

/-!
# C188–C192: calls of the system, names with dates, files of Voyager 1 and of pieces
-/
namespace Verif.Sys
open Verif.Web

namespace Spec

/-- The bit of the mode that allows a class to execute, for the bit that allows it to read. -/
def pairs : List (Nat × Nat) := [(2, 0), (5, 3), (8, 6)]

/-- A time before another one, as a clock has them. -/
def Earlier (a b : Time) : Prop :=
  a.year < b.year ∨ a.year = b.year ∧ (a.month < b.month ∨ a.month = b.month ∧ (a.day < b.day ∨ a.day = b.day ∧
    (a.hour < b.hour ∨ a.hour = b.hour ∧ (a.minute < b.minute ∨ a.minute = b.minute ∧ a.second < b.second))))

/-- A time that a clock can have. -/
def Valid (t : Time) : Prop := t.year < 10000 ∧ t.month ≤ 12 ∧ t.day ≤ 31 ∧ t.hour < 24 ∧ t.minute < 60 ∧ t.second ≤ 61

end Spec

/-! ## make_executable -/

theorem bit292 (i : Nat) : Nat.testBit 292 (2 + i) = (i == 0 || i == 3 || i == 6) := by
  rcases Nat.lt_or_ge i 7 with h | h
  · revert i; decide
  · rw [Nat.testBit_lt_two_pow (Nat.lt_of_lt_of_le (by decide : 292 < 2 ^ 9) (Nat.pow_le_pow_right (by decide) (by omega)))]
    symm
    simp only [Bool.or_eq_false_iff, beq_eq_false_iff_ne, ne_eq]
    omega

/-- **C188.** After `make_executable` a class of users may execute the file exactly if it might before or may read it, and no other permission changes. -/
theorem C188_bits (mode : Nat) : (∀ p ∈ Spec.pairs, (executable mode).testBit p.2 = (mode.testBit p.2 || mode.testBit p.1)) ∧
    ∀ i, (∀ p ∈ Spec.pairs, i ≠ p.2) → (executable mode).testBit i = mode.testBit i := by
  have key : ∀ i, (executable mode).testBit i = (mode.testBit i || (mode.testBit (2 + i) && (i == 0 || i == 3 || i == 6))) := by
    intro i
    rw [executable, Nat.testBit_or, Nat.testBit_shiftRight, Nat.testBit_and, bit292]
  refine ⟨?_, ?_⟩
  · simp only [Spec.pairs, List.forall_mem_cons, List.not_mem_nil, false_imp_iff, implies_true, and_true]
    refine ⟨?_, ?_, ?_⟩ <;> rw [key] <;> simp
  · intro i h
    simp only [Spec.pairs, List.forall_mem_cons, List.not_mem_nil, false_imp_iff, implies_true, and_true] at h
    rw [key]
    simp [h.1, h.2.1, h.2.2]

example : executable 0o100640 = 0o100750 ∧ executable 0o100600 = 0o100700 ∧ executable 0 = 0 := by decide

/-- **C188.** Doing it twice is doing it once. -/
theorem C188_twice (mode : Nat) : executable (executable mode) = executable mode := by
  apply Nat.eq_of_testBit_eq
  intro i
  by_cases h : ∀ p ∈ Spec.pairs, i ≠ p.2
  · exact (C188_bits (executable mode)).2 i h
  · have : ∃ p ∈ Spec.pairs, i = p.2 := by
      apply Classical.byContradiction
      intro hn
      exact h fun p hp e => hn ⟨p, hp, e⟩
    obtain ⟨p, hp, rfl⟩ := this
    have h1 := (C188_bits (executable mode)).1 p hp
    have h2 := (C188_bits mode).1 p hp
    have h3 : (executable mode).testBit p.1 = mode.testBit p.1 := by
      apply (C188_bits mode).2
      simp only [Spec.pairs, List.mem_cons, List.not_mem_nil, or_false] at hp
      rcases hp with rfl | rfl | rfl <;> decide
    rw [h1, h2, h3]
    cases mode.testBit p.2 <;> cases mode.testBit p.1 <;> rfl

example : executable (executable 0o100444) = 0o100555 := by decide

/-! ## shell_execute -/

theorem wordsFrom_plain : ∀ (x w rest : List Char), ' ' ∉ x → wordsFrom w (x ++ rest) = wordsFrom (w ++ x) rest
  | [], w, rest, _ => by simp
  | c :: x, w, rest, h => by
    simp only [List.mem_cons, not_or] at h
    rw [List.cons_append, wordsFrom, if_neg (fun e => h.1 e.symm), wordsFrom_plain x (w ++ [c]) rest h.2]
    simp

theorem command_eq (script : List (List Char)) : command script = script.flatMap fun x => ' ' :: x := by
  have key : ∀ (l : List (List Char)) (s : List Char), l.foldl (fun s x => s ++ ' ' :: x) s = s ++ l.flatMap fun x => ' ' :: x := by
    intro l
    induction l with
    | nil => intro s; simp
    | cons x l ih => intro s; rw [List.foldl_cons, ih]; simp
  exact (key script []).trans (List.nil_append _)

theorem words_command : ∀ (script : List (List Char)) (w : List Char), (∀ x ∈ script, x ≠ [] ∧ ' ' ∉ x) →
    wordsFrom w (script.flatMap fun x => ' ' :: x) = (if w = [] then [] else [w]) ++ script
  | [], w, _ => by simp [wordsFrom]
  | x :: l, w, h => by
    obtain ⟨h1, h2⟩ := h x (by simp)
    have ih := words_command l x (fun y hy => h y (by simp [hy]))
    rw [if_neg h1] at ih
    rw [List.flatMap_cons, List.cons_append, wordsFrom, if_pos rfl]
    split
    · rw [wordsFrom_plain x [] _ h2, List.nil_append, ih]; rfl
    · rw [wordsFrom_plain x [] _ h2, List.nil_append, ih]; rfl

/-- **C189.** A program whose name and arguments have only plain characters and are not empty is run with exactly these arguments. -/
theorem C189_words_partial {script : List (List Char)} (h : ∀ x ∈ script, x ≠ [] ∧ x.all plain = true) : shell (command script) = some script := by
  have hs : ∀ x ∈ script, ' ' ∉ x := by
    intro x hx hm
    have := List.all_eq_true.mp (h x hx).2 ' ' hm
    revert this
    decide
  rw [command_eq, shell, if_pos]
  · rw [words_command script [] (fun x hx => ⟨(h x hx).1, hs x hx⟩)]
    simp
  · rw [List.all_eq_true]
    intro c hc
    obtain ⟨x, hx, hc⟩ := List.mem_flatMap.mp hc
    rcases List.mem_cons.mp hc with rfl | hc
    · rfl
    · rw [Bool.or_eq_true]
      exact Or.inr (List.all_eq_true.mp (h x hx).2 c hc)

example : shell (command ["./test.sh".toList, "Bob".toList, "v2".toList]) = some ["./test.sh".toList, "Bob".toList, "v2".toList] := by decide +kernel

/-- **C189 is false of the code** for an argument with a blank, which becomes two arguments, and for an empty one, which is lost: the arguments are joined to
one line for the shell. -/
theorem C189_words_false : ¬ ∀ (script : List (List Char)), (∀ x ∈ script, x.all (fun c => c == ' ' || plain c) = true) → shell (command script) = some script := by
  intro h
  have := h ["rm".toList, "my file.pdf".toList] (by decide +kernel)
  revert this
  decide +kernel

example : shell (command ["rm".toList, "my file.pdf".toList]) = some ["rm".toList, "my".toList, "file.pdf".toList] ∧
    shell (command ["test.sh".toList, [], "x".toList]) = some ["test.sh".toList, "x".toList] := by decide +kernel

/-! ## date_string -/

theorem lt_append : ∀ {x y s t : List Char}, x.length = y.length → (x ++ s < y ++ t ↔ x < y ∨ x = y ∧ s < t)
  | [], [], s, t, _ => by simp
  | [], _ :: _, _, _, h => by simp at h
  | _ :: _, [], _, _, h => by simp at h
  | a :: x, b :: y, s, t, h => by
    have ih := lt_append (x := x) (y := y) (s := s) (t := t) (by simpa using h)
    rw [List.cons_append, List.cons_append, List.cons_lt_cons_iff, List.cons_lt_cons_iff, ih]
    clear h
    constructor
    · rintro (h | ⟨rfl, h | ⟨rfl, h⟩⟩)
      · exact Or.inl (Or.inl h)
      · exact Or.inl (Or.inr ⟨rfl, h⟩)
      · exact Or.inr ⟨rfl, h⟩
    · rintro ((h | ⟨rfl, h⟩) | ⟨h, h'⟩)
      · exact Or.inl h
      · exact Or.inr ⟨rfl, Or.inl h⟩
      · injection h with h1 h2
        exact Or.inr ⟨h1, Or.inr ⟨h2, h'⟩⟩

theorem digit_lt : ∀ a < 10, ∀ b < 10, (digit a < digit b ↔ a < b) ∧ (digit a = digit b ↔ a = b) := by decide +kernel

theorem two_lt {a b : Nat} (ha : a < 100) (hb : b < 100) : (two a < two b ↔ a < b) ∧ (two a = two b ↔ a = b) := by
  obtain ⟨h1, h2⟩ := digit_lt (a / 10) (by omega) (b / 10) (by omega)
  obtain ⟨h3, h4⟩ := digit_lt (a % 10) (by omega) (b % 10) (by omega)
  unfold two
  constructor
  · rw [List.cons_lt_cons_iff, List.cons_lt_cons_iff, h1, h2, h3, h4]
    simp only [List.not_lt_nil, and_false, or_false]
    omega
  · simp only [List.cons.injEq, and_true, h2, h4]
    omega

theorem four_lt {a b : Nat} (ha : a < 10000) (hb : b < 10000) :
    (two (a / 100) ++ two (a % 100) < two (b / 100) ++ two (b % 100) ↔ a < b) ∧ (two (a / 100) ++ two (a % 100) = two (b / 100) ++ two (b % 100) ↔ a = b) := by
  obtain ⟨h1, h2⟩ := two_lt (a := a / 100) (b := b / 100) (by omega) (by omega)
  obtain ⟨h3, h4⟩ := two_lt (a := a % 100) (b := b % 100) (by omega) (by omega)
  constructor
  · rw [lt_append (x := two _) (y := two _) (by rfl), h1, h2, h3]
    omega
  · rw [List.append_inj_iff_of_length_left (by rfl : (two (a / 100)).length = (two (b / 100)).length), h2, h4]
    omega
  where
    List.append_inj_iff_of_length_left {x y s t : List Char} (h : x.length = y.length) : x ++ s = y ++ t ↔ x = y ∧ s = t :=
      ⟨fun e => List.append_inj e h, fun e => by rw [e.1, e.2]⟩

theorem dateString_eq (t : Time) : dateString t = (two (t.year / 100) ++ two (t.year % 100)) ++ ('_' :: (two t.month ++ ('_' :: (two t.day ++ ('_' ::
    (two t.hour ++ ('_' :: (two t.minute ++ ('_' :: (two t.second ++ ['_'])))))))))) := by
  simp [dateString]

theorem sep_lt {s t : List Char} : ('_' :: s < '_' :: t) ↔ s < t := by
  rw [List.cons_lt_cons_iff]
  constructor
  · rintro (h | h)
    · exact absurd h (by decide)
    · exact h.2
  · exact fun h => Or.inr ⟨rfl, h⟩

/-- **C190.** Names with dates sort as the times: the name of an earlier time comes first, and only of an earlier one. -/
theorem C190_order {a b : Time} (ha : Spec.Valid a) (hb : Spec.Valid b) : dateString a < dateString b ↔ Spec.Earlier a b := by
  obtain ⟨a1, a2, a3, a4, a5, a6⟩ := ha
  obtain ⟨b1, b2, b3, b4, b5, b6⟩ := hb
  obtain ⟨h1, h1'⟩ := four_lt a1 b1
  obtain ⟨h2, h2'⟩ := two_lt (a := a.month) (b := b.month) (by omega) (by omega)
  obtain ⟨h3, h3'⟩ := two_lt (a := a.day) (b := b.day) (by omega) (by omega)
  obtain ⟨h4, h4'⟩ := two_lt (a := a.hour) (b := b.hour) (by omega) (by omega)
  obtain ⟨h5, h5'⟩ := two_lt (a := a.minute) (b := b.minute) (by omega) (by omega)
  obtain ⟨h6, h6'⟩ := two_lt (a := a.second) (b := b.second) (by omega) (by omega)
  have len : ∀ n m, (two n).length = (two m).length := fun _ _ => rfl
  have len4 : (two (a.year / 100) ++ two (a.year % 100)).length = (two (b.year / 100) ++ two (b.year % 100)).length := rfl
  rw [dateString_eq, dateString_eq, lt_append len4, sep_lt, lt_append (len a.month b.month), sep_lt, lt_append (len a.day b.day), sep_lt,
    lt_append (len a.hour b.hour), sep_lt, lt_append (len a.minute b.minute), sep_lt, lt_append (len a.second b.second), h1, h1', h2, h2', h3, h3', h4, h4', h5, h5', h6]
  unfold Spec.Earlier
  have : ¬ (['_'] : List Char) < ['_'] := by decide
  simp only [this, and_false, or_false]

example : dateString ⟨2026, 1, 9, 23, 59, 59⟩ < dateString ⟨2026, 1, 10, 0, 0, 0⟩ ∧ dateString ⟨2026, 1, 9, 23, 59, 59⟩ = "2026_01_09_23_59_59_".toList := by
  decide +kernel

/-- **C190.** Times in different seconds have different names. -/
theorem C190_distinct {a b : Time} (ha : Spec.Valid a) (hb : Spec.Valid b) (h : dateString a = dateString b) : a = b := by
  have h1 : ¬ Spec.Earlier a b := fun k => absurd ((C190_order ha hb).mpr k) (by rw [h]; exact List.lt_irrefl _)
  have h2 : ¬ Spec.Earlier b a := fun k => absurd ((C190_order hb ha).mpr k) (by rw [h]; exact List.lt_irrefl _)
  unfold Spec.Earlier at h1 h2
  obtain ⟨a1, a2, a3, a4, a5, a6⟩ := a
  obtain ⟨b1, b2, b3, b4, b5, b6⟩ := b
  simp only [Time.mk.injEq] at h1 h2 ⊢
  omega

example : Spec.Valid ⟨2026, 1, 9, 23, 59, 59⟩ ∧ Spec.Valid ⟨2024, 2, 29, 0, 0, 60⟩ := by unfold Spec.Valid; decide

/-! ## Voyager 1 -/

theorem head_vgr1 (r : List Char) : ("VGR1_Saturn_".toList ++ r).head? ≠ some '.' ∧ "VGR1_Saturn_".toList ++ r ≠ [] := by
  have : "VGR1_Saturn_".toList = 'V' :: "GR1_Saturn_".toList := by decide +kernel
  rw [this]
  simp

/-- **C191.** The table of a geometry of Voyager 1 is a new file, if the directory lists the files of the day with growing numbers and there are fewer than 9999. -/
theorem C191_fresh_partial {band dsn day : List Char} {files : List (List Char)} {t s : List Char} (hday : day.all Out.isDigit) (hv : 10 ^ 7 ≤ Out.value day)
    (hs : UOut.seqNum "GEO".toList day (some files) = .ok s) (h0 : s ≠ "0000".toList) (ht : vgr1 .geometry band dsn day (some files) = .wrote t)
    (h4 : ∀ x ∈ files, UOut.Spec.Of "GEO".toList day x → 4 ≤ (Out.lastPart x).length) (hl : UOut.Spec.Listed "GEO".toList day files) (ext : List Char)
    (he : '_' ∉ ext) : t ++ ext ∉ files := by
  unfold vgr1 at ht
  simp only at ht
  split at ht
  · rename_i t' ht'
    injection ht with e
    subst e
    rw [List.append_assoc] at ht'
    exact UOut.fresh_of (head_vgr1 _).1 (head_vgr1 _).2 hday hv hs h0 ht' h4 hl ext he
  · cases ht
  · cases ht

example : vgr1 .geometry "X".toList "43".toList "20240101".toList (some ["VGR1_Saturn_X43_GEO_20240101_0001.TAB".toList]) =
    .wrote "VGR1_Saturn_X43_GEO_20240101_0002".toList := by decide +kernel

/-- **C191 is false of the code** if the directory lists the file with number `n + 1` before the one with number `n`, for every band, station, day, ending and
number: the next file gets the number `n + 1` and replaces the former. -/
theorem C191_order_false {band dsn day ext : List Char} {n : Nat} (hday : day.all Out.isDigit) (hv : 10 ^ 7 ≤ Out.value day) (he : '_' ∉ ext)
    (hn : n + 1 < 10000) : ∃ t x y, x = "VGR1_Saturn_".toList ++ band ++ dsn ++ "_GEO_".toList ++ day ++ '_' :: (UOut.four (n + 1) ++ ext) ∧
      y = "VGR1_Saturn_".toList ++ band ++ dsn ++ "_GEO_".toList ++ day ++ '_' :: (UOut.four n ++ ext) ∧
      vgr1 .geometry band dsn day (some [x, y]) = .wrote t ∧ t ++ ext = x := by
  obtain ⟨t, h1, h2⟩ := UOut.order_of (filestr := "VGR1_Saturn_".toList ++ (band ++ dsn)) (filtyp := "GEO".toList) (n := n) (head_vgr1 _).1
    (head_vgr1 _).2 hday hv he hn
  have e : '_' :: "GEO".toList.map Out.upperC = "_GEO".toList := by decide +kernel
  have e2 : "_GEO_".toList = "_GEO".toList ++ ['_'] := by decide +kernel
  have norm : ∀ k : List Char, ("VGR1_Saturn_".toList ++ (band ++ dsn)) ++ '_' :: "GEO".toList.map Out.upperC ++ '_' :: day ++ '_' :: k =
      "VGR1_Saturn_".toList ++ band ++ dsn ++ "_GEO_".toList ++ day ++ '_' :: k := by
    intro k
    rw [e, e2]
    simp only [List.append_assoc, List.cons_append, List.nil_append]
  rw [norm, norm] at h1
  rw [norm] at h2
  refine ⟨t, _, _, rfl, rfl, ?_, h2⟩
  unfold vgr1
  simp only
  rw [List.append_assoc "VGR1_Saturn_".toList band dsn] at *
  rw [h1]

example : vgr1 .geometry "X".toList "43".toList "20240101".toList (some ["VGR1_Saturn_X43_GEO_20240101_0002.TAB".toList,
    "VGR1_Saturn_X43_GEO_20240101_0001.TAB".toList]) = .wrote "VGR1_Saturn_X43_GEO_20240101_0002".toList := by decide +kernel

/-- **C191 is false of the code** for reconstructions, for every band, station, day and directory: the class is looked for in a part of the package that does not exist,
and nothing is written. -/
theorem C191_correction_false (band dsn day : List Char) (files : Option (List (List Char))) : ∀ t, vgr1 .correction band dsn day files ≠ .wrote t := by
  intro t h
  cases h

example : vgr1 .correction "X".toList "43".toList "20240101".toList none = .attribute ∧
    vgr1 .geometry "X".toList "43".toList "20240101".toList none = .wrote "VGR1_Saturn_X43_GEO_20240101_0001".toList := by decide +kernel

/-! ## Names of pieces -/

/-- **C192.** With the range, the new name of a table or label has the range after the resolution, and the type before the ending if asked for, provided
that `M_` and the ending occur once in the path. -/
theorem C192_name_partial {a b ext : List Char} {lo hi : Nat} (psi : List Char) (hext : ext ≠ [])
    (ha : ¬ "M_".toList <:+: a ++ "M".toList) (hb : ¬ "M_".toList <:+: b ++ ext)
    (hd : ¬ ext <:+: a ++ "M_".toList ++ (Out.zfillInt 6 lo ++ '-' :: Out.zfillInt 6 hi ++ ['_']) ++ b ++ ext.dropLast) :
    pieceName ext (a ++ "M_".toList ++ b ++ ext) (lo, hi) psi true true =
      some (a ++ "M_".toList ++ (Out.zfillInt 6 lo ++ '-' :: Out.zfillInt 6 hi ++ ['_']) ++ b ++ '_' :: psi.map lowerC ++ ext) ∧
    pieceName ext (a ++ "M_".toList ++ b ++ ext) (lo, hi) psi true false =
      some (a ++ "M_".toList ++ (Out.zfillInt 6 lo ++ '-' :: Out.zfillInt 6 hi ++ ['_']) ++ b ++ ext) := by
  have h1 := replace_one (p := "M_".toList) (r := "M_".toList ++ (Out.zfillInt 6 lo ++ '-' :: Out.zfillInt 6 hi ++ ['_'])) (b := b ++ ext) (a := a)
    (by decide) hb (by rwa [(by decide +kernel : "M_".toList.dropLast = "M".toList)])
  have h2 := replace_one (p := ext) (r := '_' :: psi.map lowerC ++ ext) (b := [])
    (a := a ++ "M_".toList ++ (Out.zfillInt 6 lo ++ '-' :: Out.zfillInt 6 hi ++ ['_']) ++ b) hext (by simpa using hext) hd
  unfold pieceName
  simp only [if_true]
  generalize Out.zfillInt 6 lo ++ '-' :: Out.zfillInt 6 hi ++ ['_'] = mid at *
  rw [List.append_assoc (a ++ "M_".toList) b ext, h1]
  constructor
  · simp only [Option.map_some, Option.some.injEq]
    simp only [List.append_nil, List.append_assoc, List.cons_append] at h2 ⊢
    exact h2
  · simp only [Option.some.injEq, List.append_assoc, Bool.false_eq_true, if_false]

example : pieceName ".TAB".toList "out/RSS_2005_123_X43_E_TAU_01000M_20260101_0001.TAB".toList (87400, 87600) "Full".toList true true =
    some "out/RSS_2005_123_X43_E_TAU_01000M_087400-087600_20260101_0001_full.TAB".toList := by decide +kernel

/-- **C192 is false of the code** if only the type is to be added, for every file, range and type: the new name is made from a name that is set only with the range. -/
theorem C192_type_false (ext file : List Char) (range : Nat × Nat) (psi : List Char) : pieceName ext file range psi false true = none := rfl

example : pieceName ".TAB".toList "TAU_01000M_1.TAB".toList (1, 2) "full".toList false true = none := rfl

/-- **C192 is false of the code** for a path with `M_` in the name of a directory: the range is put there too, and the copy goes to another directory. -/
theorem C192_directory_false : ¬ ∀ (dir name : List Char) (range : Nat × Nat) (psi : List Char), '/' ∉ name →
    ∃ new, pieceName ".TAB".toList (dir ++ '/' :: name) range psi true true = some (dir ++ '/' :: new) := by
  intro h
  obtain ⟨new, hn⟩ := h "TEAM_A".toList "M_1.TAB".toList (1, 2) "full".toList (by decide +kernel)
  have e : pieceName ".TAB".toList ("TEAM_A".toList ++ '/' :: "M_1.TAB".toList) (1, 2) "full".toList true true =
      some ("TEAM_000001-000002_A/M_000001-000002_1_full.TAB".toList) := by decide +kernel
  rw [e] at hn
  have := Option.some.inj hn
  have h5 := congrArg (List.take 6) this
  rw [List.take_left' (by decide +kernel)] at h5
  revert h5
  decide +kernel

example : pieceName ".TAB".toList "TEAM_A/TAU_01000M_1.TAB".toList (1, 2) "full".toList true true =
    some "TEAM_000001-000002_A/TAU_01000M_000001-000002_1_full.TAB".toList := by decide +kernel

end Verif.Sys
