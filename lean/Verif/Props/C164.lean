import Verif.Model.WebFiles
import Mathlib.Data.List.Nodup
import Mathlib.Data.List.Range
import Mathlib.Tactic.IntervalCases
import Mathlib.Tactic.Linarith

/-!
# C164 to C168: files from the web, the type in a label, the name of a summary, and the curves of the models

rss_ringoccs/tools/rss_ringoccs_local_tools.py.
-/
namespace Verif.Web
open Verif

theorem fetch_other {α : Type} {web : List Char → Option α} {dir url : List Char} {force : Bool} {s : Store α} {file p : List Char}
    (h : p ≠ dir ++ file) : fetch web dir url force s file p = s p := by
  unfold fetch
  split
  · rfl
  · cases web (url ++ file) with
    | none => rfl
    | some c => exact if_neg h

theorem fetch_kept {α : Type} {web : List Char → Option α} {dir url : List Char} {s : Store α} {file p : List Char} {c : α}
    (h : s p = some c) : fetch web dir url false s file p = some c := by
  by_cases hp : p = dir ++ file
  · subst hp
    unfold fetch
    rw [if_pos (by rw [h]; rfl), h]
  · rw [fetch_other hp, h]

theorem fetch_self {α : Type} {web : List Char → Option α} {dir url : List Char} {force : Bool} {s : Store α} {file : List Char}
    (h : force = true ∨ s (dir ++ file) = none) : fetch web dir url force s file (dir ++ file) = (web (url ++ file) <|> s (dir ++ file)) := by
  have : ¬ (!force && (s (dir ++ file)).isSome) = true := by
    rcases h with h | h <;> simp [h]
  unfold fetch
  rw [if_neg this]
  cases web (url ++ file) with
  | none => simp
  | some c => simp

/-- **C164.** The paths returned are those of the files asked for, in order. -/
theorem C164_paths {α : Type} (web : List Char → Option α) (dir url : List Char) (force : Bool) (s : Store α) (files : List (List Char)) :
    (getFiles web dir url force s files).1 = files.map (dir ++ ·) := rfl

/-- **C164.** Without `force` nothing that was there is changed. -/
theorem C164_kept {α : Type} {web : List Char → Option α} {dir url : List Char} {files : List (List Char)} {s : Store α} {p : List Char} {c : α}
    (h : s p = some c) : (getFiles web dir url false s files).2 p = some c := by
  simp only [getFiles]
  induction files generalizing s with
  | nil => exact h
  | cons f fs ih => exact ih (fetch_kept h)

/-- **C164.** Nothing but the files asked for is changed. -/
theorem C164_others {α : Type} {web : List Char → Option α} {dir url : List Char} {force : Bool} {files : List (List Char)} {s : Store α}
    {p : List Char} (h : ∀ f ∈ files, p ≠ dir ++ f) : (getFiles web dir url force s files).2 p = s p := by
  simp only [getFiles]
  induction files generalizing s with
  | nil => rfl
  | cons f fs ih =>
    rw [List.foldl_cons, ih fun g hg => h g (List.mem_cons_of_mem _ hg)]
    exact fetch_other (h f (by simp))

/-- **C164.** A file asked for that is missing, or with `force` every file asked for, is what the server sends; without an answer it is as
before. -/
theorem C164_fetched {α : Type} {web : List Char → Option α} {dir url : List Char} {force : Bool} {files : List (List Char)} {s : Store α}
    {f : List Char} (hf : f ∈ files) (h : force = true ∨ s (dir ++ f) = none) :
    (getFiles web dir url force s files).2 (dir ++ f) = (web (url ++ f) <|> s (dir ++ f)) := by
  simp only [getFiles]
  induction files generalizing s with
  | nil => simp at hf
  | cons g gs ih =>
    rw [List.foldl_cons]
    by_cases hg : f = g
    · subst hg
      have e := fetch_self (web := web) (url := url) h
      by_cases hm : f ∈ gs
      · cases hw : web (url ++ f) with
        | none =>
          rw [hw] at e
          have e : fetch web dir url force s f (dir ++ f) = s (dir ++ f) := by simpa using e
          rw [ih hm (by rw [e]; exact h), hw, e]
        | some c =>
          rw [hw] at e
          have e : fetch web dir url force s f (dir ++ f) = some c := by simpa using e
          cases force with
          | true => rw [ih hm (.inl rfl), hw]; rfl
          | false =>
            have := C164_kept (web := web) (dir := dir) (url := url) (files := gs) e
            simp only [getFiles] at this
            rw [this]
            rfl
      · have := C164_others (web := web) (url := url) (force := force) (files := gs) (s := fetch web dir url force s f) (p := dir ++ f)
          (fun x hx hc => hm (by rw [List.append_cancel_left hc]; exact hx))
        simp only [getFiles] at this
        rw [this, e]
    · have hm : f ∈ gs := by
        rcases List.mem_cons.mp hf with hc | hc
        · exact absurd hc hg
        · exact hc
      have e : fetch web dir url force s g (dir ++ f) = s (dir ++ f) := fetch_other fun hc => hg (List.append_cancel_left hc)
      rw [ih hm (by rw [e]; exact h), e]

/-- Three files, of which one is there and one is not on the server. -/
example : (["a", "b", "c"].map String.toList).map (getFiles (fun u => if u = "u/a".toList then some 10 else if u = "u/b".toList then some 20 else none)
    "d/".toList "u/".toList false (fun p => if p = "d/a".toList then some 1 else none) (["a", "b", "c"].map String.toList)).2 = [none, none, none] ∧
    (["d/a", "d/b", "d/c"].map String.toList).map (getFiles (fun u => if u = "u/a".toList then some 10 else if u = "u/b".toList then some 20 else none)
    "d/".toList "u/".toList false (fun p => if p = "d/a".toList then some 1 else none) (["a", "b", "c"].map String.toList)).2 = [some 1, some 20, none] := by
  decide +kernel

/-- **C165.** (Full claim: every path returned holds the file of the archive.)  It does when each file asked for is there with that content, or
missing and sent by the server. -/
theorem C165_content_partial {α : Type} {web archive : List Char → Option α} {dir url : List Char} {files : List (List Char)} {s : Store α}
    (h : ∀ f ∈ files, archive f ≠ none ∧ (s (dir ++ f) = archive f ∨ s (dir ++ f) = none ∧ web (url ++ f) = archive f)) :
    ∀ f ∈ files, (getFiles web dir url false s files).2 (dir ++ f) = archive f := by
  intro f hf
  obtain ⟨hn, h⟩ := h f hf
  obtain ⟨c, hc⟩ := Option.ne_none_iff_exists'.mp hn
  rcases h with h | ⟨h1, h2⟩
  · rw [hc] at h ⊢
    exact C164_kept h
  · rw [C164_fetched hf (.inr h1), h2, h1, hc]
    rfl

/-- Two files: one is there, the other is sent. -/
example : ∀ f ∈ [['a'], ['b']], (getFiles (fun u => if u = ['u', 'b'] then some 2 else none) ['d'] ['u'] false
    (fun p => if p = ['d', 'a'] then some 1 else none) [['a'], ['b']]).2 (['d'] ++ f) = (if f = ['a'] then some 1 else some 2) :=
  C165_content_partial (archive := fun f => if f = ['a'] then some 1 else some 2) (by decide)

/-- **C165.** A path is returned although nothing is there. -/
theorem C165_missing_false {α : Type} {web : List Char → Option α} {dir url : List Char} {force : Bool} {files : List (List Char)} {s : Store α}
    {f : List Char} (hf : f ∈ files) (hw : web (url ++ f) = none) (hs : s (dir ++ f) = none) :
    dir ++ f ∈ (getFiles web dir url force s files).1 ∧ (getFiles web dir url force s files).2 (dir ++ f) = none :=
  ⟨List.mem_map.mpr ⟨f, hf, rfl⟩, by rw [C164_fetched hf (.inr hs), hw, hs]; rfl⟩

/-- **C165.** What the server sends instead of a file (an error page) is stored as the file, and stays when later calls could fetch it. -/
theorem C165_page_false {α : Type} {web later : List Char → Option α} {dir url : List Char} {files : List (List Char)} {s : Store α}
    {f : List Char} {page : α} (hf : f ∈ files) (hw : web (url ++ f) = some page) (hs : s (dir ++ f) = none) :
    (getFiles later dir url false (getFiles web dir url false s files).2 files).2 (dir ++ f) = some page :=
  C164_kept (by rw [C164_fetched hf (.inr hs), hw]; rfl)

/-- A page `404` in place of the file `7`. -/
example : (getFiles (fun _ => some 7) ['d'] ['u'] false (getFiles (fun _ => some 404) ['d'] ['u'] false (fun _ => none) [['a']]).2 [['a']]).2 ['d', 'a'] = some 404 :=
  C165_page_false (f := ['a']) (by simp) rfl rfl

theorem replace_none {p r : List Char} : ∀ {s : List Char}, ¬ p <:+: s → replaceFrom p r 0 s = s
  | [], _ => rfl
  | c :: cs, h => by
    rw [replaceFrom, if_neg, replace_none fun hc => h (hc.trans ⟨[c], [], by simp⟩)]
    exact fun hc => h (List.IsPrefix.isInfix (List.isPrefixOf_iff_prefix.mp hc))

theorem replace_skip {p r : List Char} : ∀ (u s : List Char), replaceFrom p r u.length (u ++ s) = replaceFrom p r 0 s
  | [], s => rfl
  | c :: u, s => by rw [List.cons_append, List.length_cons, replaceFrom, replace_skip u s]

theorem replace_head {p r s : List Char} (hp : p ≠ []) : replaceFrom p r 0 (p ++ s) = r ++ replaceFrom p r 0 s := by
  cases p with
  | nil => exact absurd rfl hp
  | cons c p =>
    rw [List.cons_append, replaceFrom, if_pos (List.isPrefixOf_iff_prefix.mpr ⟨s, by simp⟩), List.length_cons, Nat.add_sub_cancel,
      replace_skip p s]

/-- One occurrence is replaced, where no other begins before it. -/
theorem replace_one {p r b : List Char} (hp : p ≠ []) (hb : ¬ p <:+: b) : ∀ {a : List Char}, ¬ p <:+: a ++ p.dropLast →
    replaceAll p r (a ++ p ++ b) = a ++ r ++ b
  | [], _ => by rw [replaceAll, List.nil_append, replace_head hp, replace_none hb, List.nil_append]
  | c :: a, h => by
    have hn : ¬ p.isPrefixOf (c :: (a ++ p ++ b)) = true := by
      intro hc
      have hc := List.isPrefixOf_iff_prefix.mp hc
      apply h
      have h2 : (c :: a) ++ p.dropLast <+: c :: (a ++ p ++ b) := by
        obtain ⟨x, hx⟩ := (List.dropLast_prefix p)
        refine ⟨x ++ b, ?_⟩
        have : p ++ b = p.dropLast ++ (x ++ b) := by rw [← List.append_assoc, hx]
        rw [List.append_assoc, List.cons_append, List.append_assoc, ← this]
      have hlen : p.length ≤ ((c :: a) ++ p.dropLast).length := by
        rw [List.length_append, List.length_cons, List.length_dropLast]; omega
      exact (List.prefix_of_prefix_length_le hc h2 hlen).isInfix
    have ih := replace_one (r := r) hp hb (a := a) fun hc => h (hc.trans ⟨[c], [], by simp⟩)
    rw [replaceAll] at ih ⊢
    rw [List.cons_append, List.cons_append, replaceFrom, if_neg hn, ih]
    rfl

theorem dropWhile_spaces {t : List Char} : ∀ {ws : List Char}, (∀ c ∈ ws, isSpaceC c = true) → (ws ++ t).dropWhile isSpaceC = t.dropWhile isSpaceC
  | [], _ => rfl
  | c :: ws, h => by rw [List.cons_append, List.dropWhile_cons, if_pos (h c (by simp)), dropWhile_spaces fun d hd => h d (List.mem_cons_of_mem _ hd)]

/-- `strip` removes the spaces in front of a text that begins and ends with something else. -/
theorem strip_spaces {ws t : List Char} {a z : Char} (hw : ∀ c ∈ ws, isSpaceC c = true) (ha : isSpaceC a = false) (hz : isSpaceC z = false) :
    strip (ws ++ (a :: t ++ [z])) = a :: t ++ [z] := by
  rw [strip, dropWhile_spaces hw, List.cons_append, List.dropWhile_cons, if_neg (by rw [ha]; decide), ← List.cons_append, List.reverse_append,
    List.reverse_singleton, List.singleton_append, List.dropWhile_cons, if_neg (by rw [hz]; decide)]
  simp

theorem comma_infix {s : List Char} : [','] <:+: s ↔ ',' ∈ s := by
  constructor
  · rintro ⟨a, b, rfl⟩; simp
  · intro h
    obtain ⟨a, b, rfl⟩ := List.append_of_mem h
    exact ⟨a, b, by simp⟩

namespace Spec

/-- The line begins in front of the first line with the key. -/
def Before (pre : List (List Char)) : Prop := ∀ l ∈ pre, ¬ "psitype: ".toList <:+: l

/-- A value that can be the type: neither a comma nor the key in it. -/
def Value (v : List Char) : Prop := ',' ∉ v ∧ ¬ "psitype: ".toList <:+: v

end Spec
open Spec

theorem psitype_skip {ls : List (List Char)} : ∀ {pre : List (List Char)}, Before pre → getPsitype (pre ++ ls) = getPsitype ls
  | [], _ => rfl
  | l :: pre, h => by
    rw [List.cons_append, getPsitype, if_neg (h l (by simp)), psitype_skip fun m hm => h m (List.mem_cons_of_mem _ hm)]

/-- **C166.** A label without the key has the empty type. -/
theorem C166_none {ls : List (List Char)} (h : ∀ l ∈ ls, ¬ "psitype: ".toList <:+: l) : getPsitype ls = [] := by
  have := psitype_skip (ls := []) h
  rwa [List.append_nil] at this

theorem replace_char (c : Char) : ∀ s : List Char, replaceFrom [c] [] 0 s = s.filter fun d => decide (d ≠ c)
  | [] => rfl
  | d :: s => by
    have h : [c].isPrefixOf (d :: s) = decide (c = d) := by
      by_cases hc : c = d <;> simp [List.isPrefixOf, hc]
    rw [replaceFrom, h]
    by_cases hc : c = d
    · subst hc
      simp [replace_char c s]
    · have hd : d ≠ c := fun e => hc e.symm
      simp [hc, hd, replace_char c s]

theorem lower_comma {c : Char} (h : lowerC c = ',') : c = ',' := by
  unfold lowerC at h
  split at h
  · rename_i hr
    exfalso
    obtain ⟨h1, h2⟩ := hr
    generalize c.toNat = n at h h1 h2
    interval_cases n <;> exact absurd h (by decide)
  · exact h

/-- **C166.** Whatever the label has, no comma is in the type. -/
theorem C166_comma : ∀ ls : List (List Char), ',' ∉ getPsitype ls
  | [] => by simp [getPsitype]
  | l :: ls => by
    rw [getPsitype]
    split
    · rw [replaceAll, replace_char]
      intro h
      obtain ⟨c, hc, he⟩ := List.mem_map.mp h
      rw [lower_comma he] at hc
      simp at hc
    · exact C166_comma ls

/-- A value with two commas. -/
example : getPsitype [" psitype: Full,1,2,".toList] = "full12".toList := by decide +kernel

theorem key_end {v : List Char} {z : Char} (hz : z ∉ "psitype: ".toList) (hv : ¬ "psitype: ".toList <:+: v) : ¬ "psitype: ".toList <:+: v ++ [z] := by
  rintro ⟨a, b, h⟩
  rcases List.eq_nil_or_concat b with rfl | ⟨b', y, rfl⟩
  · rw [List.append_nil] at h
    have h' := congrArg List.getLast? h
    rw [List.getLast?_append, List.getLast?_append] at h'
    have : z = ' ' := by
      have e : "psitype: ".toList.getLast? = some ' ' := by decide +kernel
      rw [e] at h'
      simpa using h'.symm
    exact hz (by rw [this]; decide)
  · rw [List.concat_eq_append, ← List.append_assoc] at h
    have := List.append_inj_left' h rfl
    exact hv ⟨a, b', this⟩

/-- The parts of the key. -/
theorem key_line {u v : List Char} {z : Char} (hz : z ∉ "psitype: ".toList) (hv : ¬ "psitype: ".toList <:+: v)
    (hu : ¬ "psitype: ".toList <:+: u ++ "psitype:".toList) : replaceAll "psitype: ".toList [] (u ++ "psitype: ".toList ++ (v ++ [z])) = u ++ v ++ [z] := by
  rw [replace_one (by decide +kernel) (key_end hz hv) (by rwa [(by decide +kernel : "psitype: ".toList.dropLast = "psitype:".toList)])]
  simp

/-- **C166.** (Full claim: the type that is written in the label is read from it, wherever it stands among the keywords.)  A type that is
neither the first nor the last keyword is read. -/
theorem C166_middle_partial {pre post : List (List Char)} {ws v : List Char} (hp : Before pre) (hw : ∀ c ∈ ws, isSpaceC c = true) (hv : Value v) :
    getPsitype (pre ++ (ws ++ "psitype: ".toList ++ v ++ [',']) :: post) = v.map lowerC := by
  rw [psitype_skip hp, getPsitype, if_pos ⟨ws, v ++ [','], by simp⟩]
  have hs : strip (ws ++ "psitype: ".toList ++ v ++ [',']) = "psitype: ".toList ++ v ++ [','] := by
    have := strip_spaces (ws := ws) (a := 'p') (t := "sitype: ".toList ++ v) (z := ',') hw (by decide +kernel) (by decide +kernel)
    simpa using this
  rw [hs]
  have hk := key_line (u := []) (v := v) (z := ',') (by decide +kernel) hv.2 (by decide +kernel)
  rw [List.nil_append, List.nil_append, ← List.append_assoc] at hk
  rw [hk]
  have := replace_one (p := [',']) (r := []) (b := []) (by decide +kernel) (by decide +kernel) (a := v) (by
    rw [List.dropLast_singleton, List.append_nil, comma_infix]; exact hv.1)
  rw [List.append_nil, List.append_nil, List.append_nil] at this
  rw [this]

/-- The label of an optical depth: the type stands between the factor and the window. -/
example : getPsitype ["    Keyword Args      = {rng: all,".toList, "                         psitype: Fresnel4,".toList, "                         wtype: kbmd20}".toList] =
    "fresnel4".toList :=
  C166_middle_partial (pre := ["    Keyword Args      = {rng: all,".toList]) (ws := List.replicate 25 ' ') (v := "Fresnel4".toList) (by unfold Before; decide +kernel) (by decide +kernel)
    ⟨by decide +kernel, by decide +kernel⟩

/-- **C166.** The last keyword is read with the brace after it. -/
theorem C166_last_false {pre post : List (List Char)} {ws v : List Char} (hp : Before pre) (hw : ∀ c ∈ ws, isSpaceC c = true) (hv : Value v) :
    getPsitype (pre ++ (ws ++ "psitype: ".toList ++ v ++ ['}']) :: post) = v.map lowerC ++ ['}'] := by
  rw [psitype_skip hp, getPsitype, if_pos ⟨ws, v ++ ['}'], by simp⟩]
  have hs : strip (ws ++ "psitype: ".toList ++ v ++ ['}']) = "psitype: ".toList ++ v ++ ['}'] := by
    have := strip_spaces (ws := ws) (a := 'p') (t := "sitype: ".toList ++ v) (z := '}') hw (by decide +kernel) (by decide +kernel)
    simpa using this
  rw [hs]
  have hk := key_line (u := []) (v := v) (z := '}') (by decide +kernel) hv.2 (by decide +kernel)
  rw [List.nil_append, List.nil_append, ← List.append_assoc] at hk
  rw [hk, replaceAll, replace_none]
  · rw [List.map_append]; rfl
  · rw [comma_infix, List.mem_append]
    rintro (h | h)
    · exact hv.1 h
    · revert h; decide

/-- **C166.** The first keyword is read with all that stands before it in the line. -/
theorem C166_first_false {pre post : List (List Char)} {v : List Char} (hp : Before pre) (hv : Value v) :
    getPsitype (pre ++ ("    Keyword Args      = {".toList ++ "psitype: ".toList ++ v ++ [',']) :: post) = "keyword args      = {".toList ++ v.map lowerC := by
  rw [psitype_skip hp, getPsitype, if_pos ⟨"    Keyword Args      = {".toList, v ++ [','], by simp⟩]
  have hs : strip ("    Keyword Args      = {".toList ++ "psitype: ".toList ++ v ++ [',']) = "Keyword Args      = {".toList ++ "psitype: ".toList ++ (v ++ [',']) := by
    have := strip_spaces (ws := List.replicate 4 ' ') (a := 'K') (t := "eyword Args      = {psitype: ".toList ++ v) (z := ',') (by decide +kernel) (by decide +kernel) (by decide +kernel)
    simpa using this
  rw [hs, key_line (by decide +kernel) hv.2 (by decide +kernel)]
  have := replace_one (p := [',']) (r := []) (b := []) (by decide +kernel) (by decide +kernel) (a := "Keyword Args      = {".toList ++ v) (by
    rw [List.dropLast_singleton, List.append_nil, comma_infix, List.mem_append]
    rintro (h | h)
    · revert h; decide
    · exact hv.1 h)
  rw [List.append_nil, List.append_nil, List.append_nil] at this
  rw [this, List.map_append]
  rfl

/-- One keyword last, one first. -/
example : getPsitype ["   wtype: kbmd20,".toList, "   psitype: full}".toList] = "full}".toList ∧
    getPsitype ["    Keyword Args      = {psitype: full,".toList, "   wtype: kbmd20}".toList] = "keyword args      = {full".toList :=
  ⟨C166_last_false (pre := ["   wtype: kbmd20,".toList]) (ws := List.replicate 3 ' ') (v := "full".toList) (by unfold Before; decide +kernel) (by decide +kernel) ⟨by decide +kernel, by decide +kernel⟩,
    C166_first_false (pre := []) (v := "full".toList) (by unfold Before; decide +kernel) ⟨by decide +kernel, by decide +kernel⟩⟩

/-- **C166.** The lines are those that the label has for an argument of up to forty characters (`argText`, C117): in the middle, last and first. -/
theorem C166_written (written : List (List Char)) {n i : Nat} {v : List Char} (hl : v.length ≤ 32) (hn : 1 < n) :
    Pds.argText "Keyword Args".toList written n i ("psitype".toList, .text v) =
      (if i = 0 then "    Keyword Args      = {".toList ++ "psitype: ".toList ++ v ++ [','] else
        List.replicate 25 ' ' ++ "psitype: ".toList ++ v ++ (if i = n - 1 then ['}'] else [','])) ++ ['\r', '\n'] := by
  have hc : ¬ "psitype".toList.length + 1 + v.length > 40 := by
    rw [(by decide +kernel : "psitype".toList.length = 7)]; omega
  have e : List.replicate 4 ' ' ++ List.replicate 21 ' ' = List.replicate 25 ' ' := by decide +kernel
  have k : "psitype".toList ++ [':', ' '] = "psitype: ".toList := by decide +kernel
  have g : List.replicate 4 ' ' ++ Pds.ljust 18 "Keyword Args".toList ++ ['=', ' '] ++ ['{'] = "    Keyword Args      = {".toList := by decide +kernel
  rw [Pds.argText]
  simp only [if_neg hc, e, g]
  by_cases h0 : i = 0
  · rw [if_pos h0, if_pos h0, if_neg (by omega), List.append_assoc _ "psitype".toList, k]
    rfl
  · rw [if_neg h0, if_neg h0]
    by_cases h1 : i = n - 1
    · rw [if_pos h1, if_pos h1, List.append_assoc _ "psitype".toList, k]; rfl
    · rw [if_neg h1, if_neg h1, List.append_assoc _ "psitype".toList, k]; rfl

/-- The third of four keywords. -/
example : Pds.argText "Keyword Args".toList [] 4 2 ("psitype".toList, .text "full".toList) =
    List.replicate 25 ' ' ++ "psitype: ".toList ++ "full".toList ++ [','] ++ ['\r', '\n'] :=
  C166_written [] (by decide +kernel) (by decide)

namespace Spec

/-- What is put in the name: the resolution and the two radii with six digits or more. -/
def middle (res : List Char) (lo hi : Nat) : List Char := res ++ Out.zfillInt 6 lo ++ '-' :: Out.zfillInt 6 hi ++ ['_']

end Spec

theorem range_name {a b pdf tau res rest : List Char} {lo hi : Nat} (hp : pdf = a ++ "SUMMARY_".toList ++ b)
    (ha : ¬ "SUMMARY_".toList <:+: a ++ "SUMMARY".toList) (hb : ¬ "SUMMARY_".toList <:+: b) (ht : after "TAU_".toList tau = some (res ++ rest))
    (hr : res.length = 7) (psi : List Char) (addP : Bool) :
    summaryName pdf tau (lo, hi) psi true addP =
      some (if addP then replaceAll ".pdf".toList ('_' :: psi.map lowerC ++ ".pdf".toList) (a ++ "SUMMARY_".toList ++ middle res lo hi ++ b)
        else a ++ "SUMMARY_".toList ++ middle res lo hi ++ b) := by
  have he : replaceAll "SUMMARY_".toList ("SUMMARY_".toList ++ (res ++ rest).take 7 ++ Out.zfillInt 6 lo ++ '-' :: Out.zfillInt 6 hi ++ ['_']) pdf =
      a ++ "SUMMARY_".toList ++ middle res lo hi ++ b := by
    rw [hp, replace_one (by decide) hb (by rwa [(by decide +kernel : "SUMMARY_".toList.dropLast = "SUMMARY".toList)]), List.take_left' hr, middle]
    simp only [List.append_assoc]
  unfold summaryName
  simp only [if_true, ht, Option.map_some, he]

/-- **C167.** (Full claim: with `replace` the summary has the new name only.)  The new name has the resolution and the range after `SUMMARY_`,
if asked for. -/
theorem C167_range_partial {a b pdf tau res rest : List Char} {lo hi : Nat} (hp : pdf = a ++ "SUMMARY_".toList ++ b)
    (ha : ¬ "SUMMARY_".toList <:+: a ++ "SUMMARY".toList) (hb : ¬ "SUMMARY_".toList <:+: b) (ht : after "TAU_".toList tau = some (res ++ rest))
    (hr : res.length = 7) (psi : List Char) :
    summaryName pdf tau (lo, hi) psi true false = some (a ++ "SUMMARY_".toList ++ middle res lo hi ++ b) :=
  range_name hp ha hb ht hr psi false

/-- **C167.** The name with both has also the type at the end. -/
theorem C167_both_partial {a b pdf tau res rest : List Char} {lo hi : Nat} (hp : pdf = a ++ "SUMMARY_".toList ++ (b ++ ".pdf".toList))
    (ha : ¬ "SUMMARY_".toList <:+: a ++ "SUMMARY".toList) (hb : ¬ "SUMMARY_".toList <:+: b ++ ".pdf".toList)
    (ht : after "TAU_".toList tau = some (res ++ rest)) (hr : res.length = 7) (psi : List Char)
    (hd : ¬ ".pdf".toList <:+: (a ++ "SUMMARY_".toList ++ middle res lo hi ++ b) ++ ".pd".toList) :
    summaryName pdf tau (lo, hi) psi true true =
      some (a ++ "SUMMARY_".toList ++ middle res lo hi ++ b ++ ('_' :: psi.map lowerC) ++ ".pdf".toList) := by
  rw [range_name hp ha hb ht hr psi true, if_pos rfl]
  have := replace_one (p := ".pdf".toList) (r := '_' :: psi.map lowerC ++ ".pdf".toList) (b := []) (by decide) (by decide)
    (a := a ++ "SUMMARY_".toList ++ middle res lo hi ++ b) (by rwa [(by decide +kernel : ".pdf".toList.dropLast = ".pd".toList)])
  rw [List.append_nil, List.append_nil, List.append_assoc _ b, ← List.append_assoc _ _ ".pdf".toList] at this
  rw [← List.append_assoc] at this
  rw [← List.append_assoc _ b, this]

/-- A summary with one occurrence of each part. -/
example : summaryName "o/RSS_SUMMARY_2026.pdf".toList "o/RSS_TAU_01000M_2026.TAB".toList (87400, 87600) "Full".toList true true =
    some "o/RSS_SUMMARY_01000M_087400-087600_2026_full.pdf".toList := by
  rw [C167_both_partial (a := "o/RSS_".toList) (b := "2026".toList) (res := "01000M_".toList) (rest := "2026.TAB".toList) (by decide +kernel) (by decide +kernel)
    (by decide +kernel) (by decide +kernel) (by decide) "Full".toList (by decide +kernel)]
  decide +kernel

/-- **C167.** The old summary is still there, with or without `replace`: `rm` is called with the option `-f ` (with a space), which it does
not know. -/
theorem C167_removed_false {α : Type} {s s' : Store α} {pdf tau new psi : List Char} {range : Nat × Nat} {addR addP replace : Bool} {c : α}
    (h : s pdf = some c) (hr : renameSummary s pdf tau range psi addR addP replace = some (new, s')) : s' pdf = some c := by
  unfold renameSummary at hr
  have hrm : ∀ (t : Store α), rm "-f ".toList pdf t = t := by
    intro t
    unfold rm
    rw [if_neg (by decide +kernel)]
  split at hr
  · cases hn : summaryName pdf tau range psi addR addP with
    | none => rw [hn] at hr; cases hr
    | some new' =>
      rw [hn] at hr
      simp only [Option.map_some, h, hrm, ite_self, Option.some.injEq, Prod.mk.injEq] at hr
      obtain ⟨-, rfl⟩ := hr
      simp only
      split
      · rfl
      · exact h
  · cases hr; exact h

/-- **C167.** The copy has the same content. -/
theorem C167_copy {α : Type} {s s' : Store α} {pdf tau new psi : List Char} {range : Nat × Nat} {addR addP replace : Bool} {c : α}
    (h : s pdf = some c) (hr : renameSummary s pdf tau range psi addR addP replace = some (new, s')) : s' new = some c := by
  unfold renameSummary at hr
  have hrm : ∀ (t : Store α), rm "-f ".toList pdf t = t := by
    intro t
    unfold rm
    rw [if_neg (by decide +kernel)]
  split at hr
  · cases hn : summaryName pdf tau range psi addR addP with
    | none => rw [hn] at hr; cases hr
    | some new' =>
      rw [hn] at hr
      simp only [Option.map_some, h, hrm, ite_self, Option.some.injEq, Prod.mk.injEq] at hr
      obtain ⟨rfl, rfl⟩ := hr
      simp only [if_true]
  · cases hr; exact h

/-- The old and the new file after the call with `replace`. -/
example : ((renameSummary (fun p => if p = "SUMMARY_1.pdf".toList then some 5 else none) "SUMMARY_1.pdf".toList [] (0, 0) "full".toList false true true).map
    fun r => (r.1, r.2 "SUMMARY_1.pdf".toList, r.2 "SUMMARY_1_full.pdf".toList)) = some ("SUMMARY_1_full.pdf".toList, some 5, some 5) := by decide +kernel

theorem mem_curves {m a q i j k : Nat} : (i, j, k) ∈ curves m a q ↔ i < min m 2 ∧ j < min a 2 ∧ k < q := by
  simp [curves]

/-- **C168.** (Full claim: for any numbers of indices and radii.)  With up to two refractive indices and two greatest radii there is a curve for
each combination, and no other. -/
theorem C168_all_partial {m a q : Nat} (hm : m ≤ 2) (ha : a ≤ 2) (i j k : Nat) : (i, j, k) ∈ curves m a q ↔ i < m ∧ j < a ∧ k < q := by
  rw [mem_curves, Nat.min_eq_left hm, Nat.min_eq_left ha]

/-- **C168.** No curve is made twice. -/
theorem C168_once (m a q : Nat) : (curves m a q).Nodup := by
  unfold curves
  rw [List.nodup_flatMap]
  refine ⟨fun i _ => ?_, ?_⟩
  · rw [List.nodup_flatMap]
    refine ⟨fun j _ => ?_, ?_⟩
    · exact List.Nodup.map (fun x y h => by simpa using h) List.nodup_range
    · refine List.Pairwise.imp ?_ (List.pairwise_lt_range)
      intro x y hxy z h1 h2
      simp only [List.mem_map] at h1 h2
      obtain ⟨k, -, rfl⟩ := h1
      obtain ⟨l, -, h⟩ := h2
      simp only [Prod.mk.injEq] at h
      omega
  · refine List.Pairwise.imp ?_ (List.pairwise_lt_range)
    intro x y hxy z h1 h2
    simp only [List.mem_flatMap, List.mem_map] at h1 h2
    obtain ⟨_, -, _, -, rfl⟩ := h1
    obtain ⟨_, -, _, -, h⟩ := h2
    simp only [Prod.mk.injEq] at h
    omega

/-- **C168.** A third refractive index or a third greatest radius has no curve, and nothing is said. -/
theorem C168_third_false (m a q : Nat) {i j k : Nat} (h : 2 ≤ i ∨ 2 ≤ j) : (i, j, k) ∉ curves m a q := by
  rw [mem_curves]
  omega

/-- Three radii are given and two are drawn. -/
example : curves 1 3 1 = [(0, 0, 0), (0, 1, 0)] := by decide

end Verif.Web
