import Verif.Model.RevInfo
import Verif.Props.C114
import Verif.Props.C117

/-!
# C122 What is known about an occultation is recovered from its DLP file
-/
namespace Verif.Rev
open Verif.Rsr Verif.Out Verif.Pds

/-! ### Lemmas on texts -/

theorem index_at {p : List Char} : ∀ {s : List Char} {i : Nat}, p ≠ [] → p <+: s.drop i → (∀ j < i, ¬ p <+: s.drop j) → index p s = .ok i
  | [], i, hp, h, _ => by
    rw [List.drop_nil] at h
    exact absurd (List.prefix_nil.1 h) hp
  | c :: s, 0, hp, h, _ => by
    rw [index, if_pos (by simpa using h)]
  | c :: s, i + 1, hp, h, hj => by
    have h0 := hj 0 (by omega)
    rw [List.drop_zero] at h0
    rw [index, if_neg h0, index_at hp (by simpa using h) fun j hj' => by simpa using hj (j + 1) (by omega)]
    rfl

theorem index_sound {p : List Char} : ∀ {s : List Char} {i : Nat}, index p s = .ok i → p <+: s.drop i ∧ ∀ j < i, ¬ p <+: s.drop j
  | [], i, h => by
    rw [index] at h
    split at h
    · cases h
      rename_i hp
      rw [hp]
      exact ⟨List.nil_prefix, fun j hj => absurd hj (by omega)⟩
    · cases h
  | c :: s, i, h => by
    rw [index] at h
    split at h
    · cases h
      rename_i hp
      exact ⟨by simpa using hp, fun j hj => absurd hj (by omega)⟩
    · rename_i hp
      cases hi : index p s with
      | error e => rw [hi] at h; cases h
      | ok k =>
        rw [hi] at h
        obtain rfl : k + 1 = i := by simpa [pure, Except.pure, bind, Except.bind] using h
        obtain ⟨h1, h2⟩ := index_sound hi
        refine ⟨by simpa using h1, fun j hj => ?_⟩
        cases j with
        | zero => simpa using hp
        | succ j => simpa using h2 j (by omega)

/-- A text whose first, second and third letters are known at a place. -/
theorem prefix_three {a b c : Char} {s : List Char} {j : Nat} (h : [a, b, c] <+: s.drop j) : s[j]? = some a ∧ s[j + 1]? = some b ∧ s[j + 2]? = some c := by
  obtain ⟨t, e⟩ := h
  have g : ∀ k, s[j + k]? = (s.drop j)[k]? := fun k => by rw [List.getElem?_drop]
  refine ⟨?_, ?_, ?_⟩
  · rw [show j = j + 0 from rfl, g, ← e]; rfl
  · rw [g, ← e]; rfl
  · rw [g, ← e]; rfl

/-- A text of three letters that is not in `loc`, which ends with another letter, nor begins in what follows, is found where it is. -/
theorem index_three {a b c : Char} {loc mid rest : List Char} (hloc : ¬ [a, b, c] <:+: loc) (hend : ∃ l, loc = l ++ ['/'])
    (ha : a ≠ '/') (hb : b ≠ '/') (hmid : b ∉ mid) (hba : b ≠ a) :
    index [a, b, c] (loc ++ (mid ++ ([a, b, c] ++ rest))) = .ok (loc.length + mid.length) := by
  apply index_at (by simp)
  · rw [← List.append_assoc, List.drop_append_of_le_length (by simp)]
    rw [show loc.length + mid.length = (loc ++ mid).length by simp, List.drop_length, List.nil_append]
    exact List.prefix_append _ _
  · intro j hj hp
    obtain ⟨h1, h2, h3⟩ := prefix_three hp
    obtain ⟨l, rfl⟩ := hend
    by_cases hjl : j + 2 < (l ++ ['/']).length
    · rw [List.getElem?_append_left (by omega)] at h1 h2 h3
      apply hloc
      obtain ⟨hx1, e1⟩ := List.getElem?_eq_some_iff.1 h1
      obtain ⟨hx2, e2⟩ := List.getElem?_eq_some_iff.1 h2
      obtain ⟨hx3, e3⟩ := List.getElem?_eq_some_iff.1 h3
      refine ⟨(l ++ ['/']).take j, (l ++ ['/']).drop (j + 3), ?_⟩
      conv_rhs => rw [← List.take_append_drop j (l ++ ['/'])]
      rw [List.append_assoc]
      congr 1
      rw [List.drop_eq_getElem_cons hx1, List.drop_eq_getElem_cons hx2, List.drop_eq_getElem_cons hx3, e1, e2, e3]
      rfl
    · by_cases hlast : j < (l ++ ['/']).length
      · simp only [List.length_append, List.length_cons, List.length_nil, zero_add] at hjl hlast
        have hcase : j = l.length ∨ j + 1 = l.length := by omega
        rcases hcase with e | e
        · rw [List.getElem?_append_left (by simp; omega), e, List.getElem?_append_right (le_refl _), Nat.sub_self] at h1
          exact ha (Option.some.inj h1).symm
        · rw [List.getElem?_append_left (by simp; omega), e, List.getElem?_append_right (le_refl _), Nat.sub_self] at h2
          exact hb (Option.some.inj h2).symm
      · rw [List.getElem?_append_right (by omega)] at h2
        by_cases hm : j + 1 - (l ++ ['/']).length < mid.length
        · rw [List.getElem?_append_left hm] at h2
          exact hmid (List.mem_of_getElem? h2)
        · rw [List.getElem?_append_right (by omega), show j + 1 - (l ++ ['/']).length - mid.length = 0 by omega] at h2
          exact hba (Option.some.inj h2).symm

theorem basename_append {p b : List Char} (hb : '/' ∉ b) : basename (p ++ '/' :: b) = b := by
  unfold basename
  rw [List.reverse_append, List.reverse_cons, List.append_assoc, List.takeWhile_append_of_pos]
  · simp
  · intro c hc
    have : c ≠ '/' := fun e => hb (by rw [← e]; exact List.mem_reverse.1 hc)
    simpa using this

theorem splitOn_none {c : Char} : ∀ {s : List Char}, c ∉ s → splitOn c s = [s]
  | [], _ => rfl
  | x :: xs, h => by
    rw [splitOn, if_neg (fun e => h (by simp [e])), splitOn_none fun hm => h (by simp [hm])]

theorem splitOn_first {c : Char} {b : List Char} : ∀ {a : List Char}, c ∉ a → splitOn c (a ++ c :: b) = a :: splitOn c b
  | [], _ => by rw [List.nil_append, splitOn, if_pos rfl]
  | x :: xs, h => by
    rw [List.cons_append, splitOn, if_neg (fun e => h (by simp [e])), splitOn_first fun hm => h (by simp [hm])]

/-- A text without the letter `c` in a longer text lies on one side of `c`. -/
theorem infix_side {p a b : List Char} {c : Char} (hc : c ∉ p) (h : p <:+: a ++ c :: b) : p <:+: a ∨ p <:+: b := by
  obtain ⟨s, t, e⟩ := h
  rw [List.append_assoc, List.append_eq_append_iff] at e
  rcases e with ⟨u, e1, e2⟩ | ⟨u, e1, e2⟩
  · rw [List.append_eq_append_iff] at e2
    rcases e2 with ⟨v, e3, e4⟩ | ⟨v, e3, e4⟩
    · left
      exact ⟨s, v, by rw [e1, e3, List.append_assoc]⟩
    · cases v with
      | nil =>
        left
        exact ⟨s, [], by rw [e1, e3]; simp⟩
      | cons x v =>
        have : x = c := by simpa using (List.cons.inj e4).1.symm
        exact absurd (by rw [e3, this]; simp : c ∈ p) hc
  · right
    cases u with
    | nil =>
      simp only [List.nil_append] at e2
      cases p with
      | nil => exact ⟨[], b, rfl⟩
      | cons x p =>
        have : x = c := by simpa using (List.cons.inj e2).1.symm
        exact absurd (by rw [this]; simp : c ∈ x :: p) hc
    | cons x u =>
      have := (List.cons.inj e2).2
      exact ⟨u, t, by rw [this, List.append_assoc]; rfl⟩

theorem infix_spaces {p b : List Char} (hc : ' ' ∉ p) : ∀ n, p <:+: List.replicate n ' ' ++ b → p <:+: b
  | 0, h => by simpa using h
  | n + 1, h => by
    rw [List.replicate_succ, List.cons_append, ← List.nil_append (' ' :: _)] at h
    rcases infix_side hc h with h | h
    · rw [List.infix_nil] at h
      rw [h]
      exact List.nil_infix
    · exact infix_spaces hc n h

/-! ### The values in the label -/

/-- The keywords that are looked for. -/
def keys : List (List Char) :=
  ["SOURCE_PRODUCT_ID".toList, "RING_OCCULTATION_DIRECTION".toList, "RING_PROFILE_DIRECTION".toList, "PLANETARY_OCCULTATION_FLAG".toList]

theorem find?_same {α : Type} {p q : α → Bool} : ∀ {l : List α}, (∀ x ∈ l, p x = q x) → l.find? p = l.find? q
  | [], _ => rfl
  | x :: xs, h => by
    rw [List.find?_cons, List.find?_cons, h x (by simp), find?_same fun y hy => h y (by simp [hy])]

/-- The lines of the header are those that the label writer puts into the file. -/
theorem C122_lines (val : List Char → List Char) :
    headerText 37 (dlpKeys.map fun k => k.map fun k => [(k, val k)]) = ((dlpHeader val).map fun l => l ++ cr).flatten := by
  unfold headerText dlpHeader
  rw [List.flatMap_map, List.map_map, ← List.flatMap_def]
  congr 1
  funext k
  cases k with
  | none => rfl
  | some k => simp [statement]

theorem line_infix {key k v : List Char} (hk : k.length < 37) (h1 : ' ' ∉ key) (h2 : '=' ∉ key)
    (h : key <:+: ljust 37 k ++ ['=', ' '] ++ v) : key <:+: k ∨ key <:+: v := by
  unfold ljust at h
  obtain ⟨n, hn⟩ : ∃ n, 37 - k.length = n + 1 := ⟨37 - k.length - 1, by omega⟩
  rw [hn, List.replicate_succ] at h
  simp only [List.append_assoc, List.cons_append, List.nil_append] at h
  rcases infix_side h1 h with h | h
  · exact .inl h
  · have h := infix_spaces h1 n h
    rw [← List.nil_append ('=' :: _)] at h
    rcases infix_side h2 h with h | h
    · rw [List.infix_nil] at h
      rw [h]; exact .inl List.nil_infix
    · rw [← List.nil_append (' ' :: _)] at h
      rcases infix_side h1 h with h | h
      · rw [List.infix_nil] at h
        rw [h]; exact .inl List.nil_infix
      · exact .inr h

/-- **C122**, label: each of the four keywords gives its value, for every label whose value is quoted and in whose other values the keyword does not occur;
whatever comes after the header. -/
theorem C122_label (key : List Char) (hkey : key ∈ keys) (val : List Char → List Char) (v : List Char) (hv : val key = '"' :: v ++ ['"'])
    (hq : '"' ∉ v) (ho : ∀ k, some k ∈ dlpKeys → k ≠ key → ¬ key <:+: val k) (rest : List (List Char)) :
    inLabel key (dlpHeader val ++ rest) = .ok (val key) := by
  have hk1 : ' ' ∉ key ∧ '=' ∉ key ∧ '"' ∉ key ∧ key ≠ [] :=
    (by decide +kernel : ∀ key ∈ keys, ' ' ∉ key ∧ '=' ∉ key ∧ '"' ∉ key ∧ key ≠ []) key hkey
  have hk2 : dlpKeys.find? (fun k => decide (k = some key)) = some (some key) :=
    (by decide +kernel : ∀ key ∈ keys, dlpKeys.find? (fun k => decide (k = some key)) = some (some key)) key hkey
  have hk3 : ∀ k ∈ dlpKeys, ∀ x, k = some x → x.length < 37 ∧ (x ≠ key → ¬ key <:+: x) := by
    have : ∀ key ∈ keys, ∀ k ∈ dlpKeys, (match k with
      | none => true
      | some x => decide (x.length < 37) && (decide (x = key) || decide (¬ key <:+: x))) = true := by decide +kernel
    intro k hk x e
    have := this key hkey k hk
    rw [e] at this
    simp only [Bool.and_eq_true, Bool.or_eq_true, decide_eq_true_eq] at this
    exact ⟨this.1, fun hne => this.2.resolve_left hne⟩
  have hfind : (dlpHeader val ++ rest).find? (fun l => decide (key <:+: l)) = some (ljust 37 key ++ ['=', ' '] ++ val key) := by
    rw [List.find?_append]
    have : (dlpHeader val).find? (fun l => decide (key <:+: l)) = some (ljust 37 key ++ ['=', ' '] ++ val key) := by
      unfold dlpHeader
      rw [List.find?_map, find?_same (q := fun k => decide (k = some key)), hk2]
      · rfl
      · intro k hk
        cases k with
        | none =>
          simp only [Function.comp, reduceCtorEq, decide_false, decide_eq_false_iff_not, List.infix_nil]
          exact hk1.2.2.2
        | some x =>
          simp only [Function.comp, Option.some.injEq]
          by_cases hx : x = key
          · subst hx
            simp only [decide_true, decide_eq_true_eq]
            refine ⟨[], List.replicate (37 - x.length) ' ' ++ ['=', ' '] ++ val x, ?_⟩
            simp [ljust]
          · simp only [hx, decide_false, decide_eq_false_iff_not]
            intro hin
            rcases line_infix (hk3 _ hk x rfl).1 hk1.1 hk1.2.1 hin with h | h
            · exact (hk3 _ hk x rfl).2 hx h
            · exact ho x hk hx h
    rw [this]
    rfl
  have hsplit : splitOn '"' (ljust 37 key ++ ['=', ' '] ++ val key) = [ljust 37 key ++ ['=', ' '], v, []] := by
    rw [hv, List.cons_append, splitOn_first, splitOn_first hq]
    · rfl
    · intro hm
      rw [List.mem_append, ljust, List.mem_append] at hm
      rcases hm with (hm | hm) | hm
      · exact hk1.2.2.1 hm
      · exact absurd (List.eq_of_mem_replicate hm) (by decide)
      · revert hm; decide
  unfold inLabel
  rw [hfind]
  simp only [hsplit]
  rw [hv]

/-! ### The whole -/

/-- An occultation of the Cassini mission, as the reader of the raw data describes it: station `DSS-nn`, the letter of the band in quotation marks, directions
and flag in quotation marks. -/
structure Cassini (q : Info) (b : Char) (st : List Char) : Prop where
  year : q.year.length = 4 ∧ q.year.all isDigit
  doy : q.doy.length = 3 ∧ q.doy.all isDigit
  rev : q.revNum.length = 3 ∧ q.revNum.all isDigit
  band : q.band = ['"', b, '"'] ∧ b ∈ ['X', 'S', 'K']
  dsn : q.dsn = "DSS-".toList ++ st ∧ st.length = 2 ∧ st.all isDigit
  ul : ∀ u, q.ulDsn = some u → ∃ w, u = "DSS-".toList ++ w ∧ w.all isDigit
  rsr : '"' ∉ q.rsrFile
  occ : ∃ v, q.occDir = '"' :: v ++ ['"'] ∧ '"' ∉ v
  prof : ∃ v, q.profDir = '"' :: v ++ ['"'] ∧ '"' ∉ v
  flag : ∃ v, q.flag = '"' :: v ++ ['"'] ∧ '"' ∉ v

theorem digit_not {l : List Char} {c : Char} (hl : l.all isDigit) (hc : isDigit c = false) : c ∉ l := by
  intro hm
  have := List.all_eq_true.mp hl _ hm
  rw [hc] at this; cases this

theorem station_last {st : List Char} (h : st.all isDigit) : (splitOn '-' ("DSS-".toList ++ st)).getLastD [] = st := by
  have e : "DSS-".toList ++ st = "DSS".toList ++ '-' :: st := rfl
  rw [e, splitOn_first (by decide), splitOn_none (digit_not h (by decide))]
  rfl

theorem upper_quote {l : List Char} (h : '"' ∉ l) : '"' ∉ l.map upperC := by
  intro hm
  obtain ⟨c, hc, e⟩ := List.mem_map.1 hm
  unfold upperC at e
  split at e
  · rename_i hr
    have h1 : (Char.ofNat (c.toNat - 32)).toNat = c.toNat - 32 := by
      have : ∀ n, 97 ≤ n → n ≤ 122 → (Char.ofNat (n - 32)).toNat = n - 32 := by decide +kernel
      exact this _ hr.1 hr.2
    rw [e] at h1
    have : ('"' : Char).toNat = 34 := rfl
    omega
  · rw [e] at hc
    exact h hc

theorem notMem_append {c : Char} {a b : List Char} (ha : c ∉ a) (hb : c ∉ b) : c ∉ a ++ b := by
  rw [List.mem_append, not_or]; exact ⟨ha, hb⟩

theorem notMem_cons {c x : Char} {b : List Char} (ha : x ≠ c) (hb : c ∉ b) : c ∉ x :: b := by
  rw [List.mem_cons, not_or]; exact ⟨fun e => ha e.symm, hb⟩

theorem labelName_path {loc rev c fstr t : List Char} {d : Char} (hloc2 : ¬ "TAB".toList <:+: loc) (hend : ∃ l, loc = l ++ ['/'])
    (hr : 'A' ∉ rev) (hc : 'A' ∉ c) (hd : d ≠ 'A') (hf : 'A' ∉ fstr) (ht : 'A' ∉ t) :
    labelName (path loc rev c d fstr t ".TAB".toList) = .ok (path loc rev c d fstr t ".LBL".toList) := by
  have key : ∀ mid : List Char, 'A' ∉ mid → labelName (loc ++ (mid ++ (['T', 'A', 'B'] ++ []))) = .ok (loc ++ (mid ++ ['L', 'B', 'L'])) := by
    intro mid hA
    have hi := index_three (a := 'T') (b := 'A') (c := 'B') (mid := mid) (rest := []) hloc2 hend (by decide) (by decide) hA (by decide)
    unfold labelName
    rw [show "TAB".toList = ['T', 'A', 'B'] from rfl, hi]
    simp only [bind, Except.bind, pure, Except.pure, slice, List.drop_zero, Nat.sub_zero]
    rw [← List.append_assoc, show loc.length + mid.length = (loc ++ mid).length by simp, List.take_left, List.append_assoc]
    rfl
  have := key ("Rev".toList ++ rev ++ "/Rev".toList ++ rev ++ c ++ [d] ++ "/Rev".toList ++ rev ++ c ++ [d] ++ '_' :: fstr ++ '/' :: fstr ++ t ++ ['.'])
    (by
      have h1 : 'A' ∉ "Rev".toList := by decide
      have h2 : 'A' ∉ "/Rev".toList := by decide
      have h3 : 'A' ∉ [d] := notMem_cons hd (by simp)
      have h4 : 'A' ∉ '_' :: fstr := notMem_cons (by decide) hf
      have h5 : 'A' ∉ '/' :: fstr := notMem_cons (by decide) hf
      have h6 : 'A' ∉ ['.'] := by decide
      repeat' first | assumption | apply notMem_append)
  have e1 : ".TAB".toList = ['.', 'T', 'A', 'B'] := rfl
  have e2 : ".LBL".toList = ['.', 'L', 'B', 'L'] := rfl
  unfold path
  rw [e1, e2]
  simpa only [List.append_assoc, List.cons_append, List.nil_append, List.append_nil] using this

theorem basename_path {loc rev c fstr t : List Char} {d : Char} (hf : '/' ∉ fstr) (ht : '/' ∉ t) :
    basename (path loc rev c d fstr t ".TAB".toList) = fstr ++ (t ++ ".TAB".toList) := by
  unfold path
  rw [List.append_assoc, List.append_assoc, List.cons_append, basename_append]
  refine notMem_append hf (notMem_append ht (by decide))

theorem rev_path {loc rev c fstr t ext : List Char} {d : Char} (hloc1 : ¬ "Rev".toList <:+: loc) (hend : ∃ l, loc = l ++ ['/']) (hr : rev.length = 3) :
    index "Rev".toList (path loc rev c d fstr t ext) = .ok loc.length ∧
      slice (loc.length + 3) (loc.length + 6) (path loc rev c d fstr t ext) = rev := by
  have e : ∃ z, path loc rev c d fstr t ext = loc ++ (['R', 'e', 'v'] ++ (rev ++ z)) := by
    refine ⟨"/Rev".toList ++ rev ++ c ++ [d] ++ "/Rev".toList ++ rev ++ c ++ [d] ++ '_' :: fstr ++ '/' :: fstr ++ t ++ ext, ?_⟩
    unfold path
    rw [show "Rev".toList = ['R', 'e', 'v'] from rfl]
    simp only [List.append_assoc]
  obtain ⟨z, e⟩ := e
  rw [e]
  constructor
  · have := index_three (a := 'R') (b := 'e') (c := 'v') (mid := []) (rest := rev ++ z) hloc1 hend (by decide) (by decide) (by simp) (by decide)
    rw [show "Rev".toList = ['R', 'e', 'v'] from rfl]
    simpa only [List.nil_append, List.length_nil, Nat.add_zero] using this
  · unfold slice
    rw [← List.append_assoc, show loc.length + 3 = (loc ++ ['R', 'e', 'v']).length by simp, List.drop_left,
      show loc.length + 6 - (loc ++ ['R', 'e', 'v']).length = rev.length by simp [hr], List.take_left]

theorem fileStr_form {q : Info} {b : Char} {st : List Char} (hq : Cassini q b st) {d : Char} {fstr : List Char} (hf : fileStr q d = .ok fstr) :
    ∃ w : List Char, w.all isDigit ∧ fstr = "RSS_".toList ++ q.year ++ '_' :: q.doy ++ '_' :: b :: (st ++ w) ++ ['_', d] := by
  have hb : bandLetter q = .ok [b] := by
    have : b ≠ '"' := by
      intro e
      have hb := hq.band.2
      rw [e] at hb
      revert hb; decide
    unfold bandLetter
    rw [hq.band.1, show ['"', b, '"'] = [] ++ '"' :: ([b] ++ '"' :: []) from rfl, splitOn_first (by simp),
      splitOn_first (by simpa using this.symm)]
  unfold fileStr at hf
  rw [hb] at hf
  have hy : pyIntDigits q.year = .ok (value q.year) := by
    unfold pyIntDigits
    rw [if_pos]
    exact ⟨fun e => by have := hq.year.1; rw [e] at this; simp at this, hq.year.2⟩
  unfold stations at hf
  rw [hy] at hf
  simp only [bind, Except.bind, pure, Except.pure] at hf
  by_cases hyr : value q.year > 2010
  · rw [if_pos hyr] at hf
    cases hu : q.ulDsn with
    | none => rw [hu] at hf; cases hf
    | some u =>
      rw [hu] at hf
      obtain ⟨w, e, hw⟩ := hq.ul u hu
      refine ⟨w, hw, ?_⟩
      simp only [hq.dsn.1, e, station_last hq.dsn.2.2, station_last hw] at hf
      cases hf
      simp
  · rw [if_neg hyr] at hf
    refine ⟨[], rfl, ?_⟩
    simp only [hq.dsn.1, station_last hq.dsn.2.2] at hf
    cases hf
    simp

/-- What the fixed places of the name hold. -/
theorem name_parts {year doy st : List Char} {b : Char} (z : List Char) (y1 : year.length = 4) (d1 : doy.length = 3) (s2 : st.length = 2) :
    let n := "RSS_".toList ++ (year ++ ('_' :: (doy ++ ('_' :: b :: (st ++ z)))))
    slice 4 8 n = year ∧ slice 9 12 n = doy ∧ slice 14 16 n = st ∧ item 13 n = .ok b ∧ (2 ≤ z.length → ∃ x, item 17 n = .ok x) := by
  match year, y1, doy, d1, st, s2 with
  | [a1, a2, a3, a4], _, [g1, g2, g3], _, [u1, u2], _ =>
    intro n
    refine ⟨?_, ?_, ?_, ?_, fun hz => ?_⟩
    iterate 3
      · simp only [n, slice, show "RSS_".toList = ['R', 'S', 'S', '_'] from rfl, List.cons_append, List.nil_append, List.drop_succ_cons, List.drop_zero,
          Nat.reduceSub, List.take_succ_cons, List.take_zero]
    · simp only [n, item, show "RSS_".toList = ['R', 'S', 'S', '_'] from rfl, List.cons_append, List.nil_append, List.getElem?_cons_succ, List.getElem?_cons_zero]
    have h1 : 1 < z.length := by omega
    refine ⟨z[1], ?_⟩
    simp only [n, item, show "RSS_".toList = ['R', 'S', 'S', '_'] from rfl, List.cons_append, List.nil_append, List.getElem?_cons_succ,
      List.getElem?_eq_getElem h1]

/-- **C122**: for every occultation, every path that contains neither `Rev` nor `TAB` and ends with `/`, and every DLP file written there, the function finds the
year, the day, the band, the receiving station, the number of the revolution, and from the label the raw file (in capitals and quotation marks), both
directions and the flag. -/
theorem C122_roundtrip_partial (q : Info) (b : Char) (st : List Char) (hq : Cassini q b st) (loc c t : List Char) (d : Char) (fstr : List Char)
    (hf : fileStr q d = .ok fstr) (hloc1 : ¬ "Rev".toList <:+: loc) (hloc2 : ¬ "TAB".toList <:+: loc) (hend : ∃ l, loc = l ++ ['/'])
    (hd : d ≠ 'A' ∧ d ≠ '/') (hc : 'A' ∉ c) (ht : 'A' ∉ t ∧ '/' ∉ t)
    (fs : List Char → Option (List (List Char))) (val : List Char → List Char) (rest : List (List Char))
    (hlbl : fs (path loc q.revNum c d fstr t ".LBL".toList) = some (dlpHeader val ++ rest))
    (h1 : val "SOURCE_PRODUCT_ID".toList = sourceDlp q) (h2 : val "RING_OCCULTATION_DIRECTION".toList = q.occDir)
    (h3 : val "RING_PROFILE_DIRECTION".toList = q.profDir) (h4 : val "PLANETARY_OCCULTATION_FLAG".toList = q.flag)
    (ho : ∀ key ∈ keys, ∀ k, some k ∈ dlpKeys → k ≠ key → ¬ key <:+: val k) :
    revInfoFromDlp fs (path loc q.revNum c d fstr t ".TAB".toList) =
      .ok ⟨sourceDlp q, q.band, q.year, q.doy, st, none, q.occDir, q.profDir, q.revNum, q.flag⟩ := by
  obtain ⟨w, hw, ew⟩ := fileStr_form hq hf
  obtain ⟨y1, y2⟩ := hq.year
  obtain ⟨d1, d2⟩ := hq.doy
  obtain ⟨r1, r2⟩ := hq.rev
  obtain ⟨b1, b2⟩ := hq.band
  obtain ⟨s1, s2, s3⟩ := hq.dsn
  have hbA : b ≠ 'A' ∧ b ≠ '/' := by
    constructor <;> intro e <;> rw [e] at b2 <;> revert b2 <;> decide
  have fA : 'A' ∉ fstr ∧ '/' ∉ fstr := by
    rw [ew]
    constructor
    · simp only [List.mem_append, List.mem_cons, List.not_mem_nil, or_false, not_or]
      exact ⟨⟨⟨⟨by decide, digit_not y2 (by decide)⟩, by decide, digit_not d2 (by decide)⟩, by decide, fun e => hbA.1 e.symm,
        digit_not s3 (by decide), digit_not hw (by decide)⟩, by decide, fun e => hd.1 e.symm⟩
    · simp only [List.mem_append, List.mem_cons, List.not_mem_nil, or_false, not_or]
      exact ⟨⟨⟨⟨by decide, digit_not y2 (by decide)⟩, by decide, digit_not d2 (by decide)⟩, by decide, fun e => hbA.2 e.symm,
        digit_not s3 (by decide), digit_not hw (by decide)⟩, by decide, fun e => hd.2 e.symm⟩
  have hbase := basename_path (loc := loc) (rev := q.revNum) (c := c) (d := d) fA.2 ht.2
  obtain ⟨hrev, hrevnum⟩ := rev_path (c := c) (fstr := fstr) (t := t) (ext := ".TAB".toList) (d := d) hloc1 hend r1
  have hlab := labelName_path (d := d) (fstr := fstr) hloc2 hend (digit_not r2 (c := 'A') (by decide)) hc (fun e => hd.1 e) fA.1 ht.1
  have hkey : ∀ key ∈ keys, ∀ v, val key = '"' :: v ++ ['"'] → '"' ∉ v →
      fromDlp fs key (path loc q.revNum c d fstr t ".TAB".toList) = .ok (val key) := by
    intro key hk v hv hqv
    unfold fromDlp
    rw [hlab]
    simp only [bind, Except.bind, hlbl]
    exact C122_label key hk val v hv hqv (ho key hk) rest
  have k1 := hkey "SOURCE_PRODUCT_ID".toList (by decide) (q.rsrFile.map upperC) (by rw [h1]; rfl) (upper_quote hq.rsr)
  obtain ⟨v2, e2, n2⟩ := hq.occ
  have k2 := hkey "RING_OCCULTATION_DIRECTION".toList (by decide) v2 (by rw [h2, e2]) n2
  obtain ⟨v3, e3, n3⟩ := hq.prof
  have k3 := hkey "RING_PROFILE_DIRECTION".toList (by decide) v3 (by rw [h3, e3]) n3
  obtain ⟨v4, e4, n4⟩ := hq.flag
  have k4 := hkey "PLANETARY_OCCULTATION_FLAG".toList (by decide) v4 (by rw [h4, e4]) n4
  -- the parts of the name
  have hn : basename (path loc q.revNum c d fstr t ".TAB".toList) =
      "RSS_".toList ++ (q.year ++ ('_' :: (q.doy ++ ('_' :: b :: (st ++ (w ++ ('_' :: d :: (t ++ ".TAB".toList)))))))) := by
    rw [hbase, ew]
    simp only [List.append_assoc, List.cons_append, List.nil_append]
  obtain ⟨p1, p2, p3, p4, p5⟩ := name_parts (b := b) (w ++ ('_' :: d :: (t ++ ".TAB".toList))) y1 d1 s2
  obtain ⟨x, hx⟩ := p5 (by simp only [List.length_append, List.length_cons]; omega)
  unfold revInfoFromDlp
  rw [hn]
  simp only [hx, p1, p2, p3, p4, hrev, k1, k2, k3, k4, bind, Except.bind, pure, Except.pure, h1, h2, h3, h4, hrevnum, b1]

/-- The first occultation of 2005 day 123, as the reader describes it. -/
def q0 : Info :=
  ⟨"s10sroe2005123.1a".toList, "\"X\"".toList, "2005".toList, "123".toList, "DSS-43".toList, none, "\"INGRESS\"".toList, "\"INGRESS\"".toList,
    "007".toList, "\"N\"".toList⟩

/-- The values of its label. -/
def val0 (k : List Char) : List Char :=
  if k = "SOURCE_PRODUCT_ID".toList then sourceDlp q0
  else if k = "RING_OCCULTATION_DIRECTION".toList then q0.occDir
  else if k = "RING_PROFILE_DIRECTION".toList then q0.profDir
  else if k = "PLANETARY_OCCULTATION_FLAG".toList then q0.flag
  else "0".toList

theorem q0_cassini : Cassini q0 'X' "43".toList :=
  ⟨by decide, by decide, by decide, by decide, by decide, (by intro u h; cases h), by decide, ⟨"INGRESS".toList, by decide⟩, ⟨"INGRESS".toList, by decide⟩,
    ⟨"N".toList, by decide⟩⟩

/-- A file written to `../output/` is read back. -/
example : revInfoFromDlp (fun _ => some (dlpHeader val0 ++ [])) (path "../output/".toList "007".toList [] 'I' "RSS_2005_123_X43_I".toList "_DLP_0500M_20260101_0001".toList ".TAB".toList) =
    .ok ⟨"\"S10SROE2005123.1A\"".toList, "\"X\"".toList, "2005".toList, "123".toList, "43".toList, none, "\"INGRESS\"".toList, "\"INGRESS\"".toList,
      "007".toList, "\"N\"".toList⟩ :=
  C122_roundtrip_partial q0 'X' "43".toList q0_cassini "../output/".toList [] "_DLP_0500M_20260101_0001".toList 'I' "RSS_2005_123_X43_I".toList (by decide +kernel)
    (by decide +kernel) (by decide +kernel) ⟨"../output".toList, rfl⟩ (by decide) (by simp) (by decide) (fun _ => some (dlpHeader val0 ++ [])) val0 [] rfl
    (by decide +kernel) (by decide +kernel) (by decide +kernel) (by decide +kernel)
    (by
      intro key hk k hkd hne
      have h : ∀ key ∈ keys, ∀ k ∈ dlpKeys, (match k with
        | none => true
        | some k => decide (k = key) || decide (¬ key <:+: val0 k)) = true := by decide +kernel
      have := h key hk _ hkd
      simp only [Bool.or_eq_true, decide_eq_true_eq] at this
      exact this.resolve_left hne)

example : inLabel "RING_PROFILE_DIRECTION".toList (dlpHeader val0 ++ ["END".toList]) = .ok "\"INGRESS\"".toList := by decide +kernel

/-! ### What is not recovered -/

/-- **C122** (false): after 2010 the name of a file needs the station of the uplink, which is never read back: writing a file for an occultation read from
its DLP file fails with `KeyError`, whatever the files contain. -/
theorem C122_uplink_false (fs : List Char → Option (List (List Char))) (dlp : List Char) (i : Info) (h : revInfoFromDlp fs dlp = .ok i)
    (hy : i.year ≠ [] ∧ i.year.all isDigit) (h2 : 2010 < value i.year) (d : Char) : stations i = .error .key ∧ fileStr i d = .error .key := by
  have hul : i.ulDsn = none := by
    unfold revInfoFromDlp at h
    simp only [bind, Except.bind, pure, Except.pure] at h
    repeat' (split at h; cases h)
    all_goals first | cases h; rfl | cases h
  have hs : stations i = .error .key := by
    unfold stations pyIntDigits
    rw [if_pos hy]
    simp only [bind, Except.bind]
    rw [if_pos h2, hul]
  have hb : ∃ c, bandLetter i = .ok c := by
    have hbd : ∃ c, i.band = ['"', c, '"'] := by
      unfold revInfoFromDlp at h
      simp only [bind, Except.bind, pure, Except.pure] at h
      repeat' (split at h; cases h)
      all_goals first | (cases h; exact ⟨_, rfl⟩) | cases h
    obtain ⟨c, hc⟩ := hbd
    unfold bandLetter
    rw [hc]
    by_cases e : c = '"'
    · rw [e]; exact ⟨[], rfl⟩
    · refine ⟨[c], ?_⟩
      rw [show ['"', c, '"'] = [] ++ '"' :: ([c] ++ '"' :: []) from rfl, splitOn_first (by simp), splitOn_first (by simpa using fun h => e h.symm)]
  refine ⟨hs, ?_⟩
  obtain ⟨c, hc⟩ := hb
  unfold fileStr
  rw [hc, hs]
  rfl

/-- An occultation of 2016 with two stations: its DLP file is read back without error. -/
example : ∃ i, revInfoFromDlp (fun _ => none) "../output/Rev236/Rev236I/Rev236I_RSS_2016_158_X2543_I/RSS_2016_158_X2543_I_DLP_0500M_20260101_0001.TAB".toList = .ok i ∧
    2010 < value i.year := by
  refine ⟨⟨"\"Unknown\"".toList, "\"X\"".toList, "2016".toList, "158".toList, "25".toList, none, "\"Unknown\"".toList, "\"Unknown\"".toList,
    "236".toList, "\"Unknown\"".toList⟩, ?_, ?_⟩ <;> decide +kernel

/-- **C122** (false): `Rev` in the path of the output gives a wrong number, and `TAB` in the path hides the label: for the same file and label. -/
theorem C122_path_false :
    (revInfoFromDlp (fun n => if "LBL".toList <:+ n ∧ "_DLP_0500M_20260101_0001".toList <:+: n then some (dlpHeader val0) else none)
      (path "../Review/".toList "007".toList [] 'I' "RSS_2005_123_X43_I".toList "_DLP_0500M_20260101_0001".toList ".TAB".toList) =
      .ok ⟨"\"S10SROE2005123.1A\"".toList, "\"X\"".toList, "2005".toList, "123".toList, "43".toList, none, "\"INGRESS\"".toList, "\"INGRESS\"".toList,
        "iew".toList, "\"N\"".toList⟩) ∧
    (revInfoFromDlp (fun n => if "LBL".toList <:+ n ∧ "_DLP_0500M_20260101_0001".toList <:+: n then some (dlpHeader val0) else none)
      (path "../TABLES/".toList "007".toList [] 'I' "RSS_2005_123_X43_I".toList "_DLP_0500M_20260101_0001".toList ".TAB".toList) =
      .ok ⟨"\"Unknown\"".toList, "\"X\"".toList, "2005".toList, "123".toList, "43".toList, none, "\"Unknown\"".toList, "\"Unknown\"".toList,
        "007".toList, "\"Unknown\"".toList⟩) := by
  constructor <;> decide +kernel

theorem upperC_twice (c : Char) : upperC (upperC c) = upperC c := by
  have h : ∀ n, n ≤ 122 → upperC (upperC (Char.ofNat n)) = upperC (Char.ofNat n) := by decide +kernel
  by_cases hc : c.toNat ≤ 122
  · have := h c.toNat hc
    rwa [Char.ofNat_toNat] at this
  · have e : upperC c = c := by
      unfold upperC
      rw [if_neg (fun hh => hc hh.2)]
    rw [e, e]

/-- **C122** (false): the description read back is not the description from the raw data.  The station has lost its first four letters, which
`rss_ringoccs_local_tools.py` 1855 removes again.  The raw file has got quotation marks: a label of optical depth written from the raw data
has none around it, one written from the description read back has one pair, and a DLP label written from it has two. -/
theorem C122_quotes_false (q : Info) (b : Char) (st : List Char) (hq : Cassini q b st) (i : Info) (hi : i.rsrFile = sourceDlp q) (hd : i.dsn = st) :
    q.dsn.drop 4 = st ∧ i.dsn.drop 4 = [] ∧ '"' ∉ sourceTau q ∧ sourceTau i = '"' :: sourceTau q ++ ['"'] ∧ sourceDlp i = '"' :: '"' :: sourceTau q ++ ['"', '"'] := by
  have e : i.rsrFile.map upperC = '"' :: q.rsrFile.map upperC ++ ['"'] := by
    rw [hi]
    have : upperC '"' = '"' := by decide
    unfold sourceDlp
    simp only [List.map_cons, List.map_append, List.map_map, List.map_nil, this]
    congr 2
    apply List.map_congr_left
    intro c _
    exact upperC_twice c
  refine ⟨by rw [hq.dsn.1]; rfl, by rw [hd, List.drop_eq_nil_iff, hq.dsn.2.1]; omega, upper_quote hq.rsr, e, ?_⟩
  unfold sourceDlp sourceTau
  rw [e]
  simp

example : Cassini q0 'X' "43".toList ∧ sourceTau q0 = "S10SROE2005123.1A".toList := ⟨q0_cassini, by decide⟩

/-! ### The history in the label -/

theorem bounds_skip : ∀ (a : List (List Char)) (i : Nat) (o : Option Nat) (z : List (List Char)), (∀ l ∈ a, ¬ "\"".toList <+: l) →
    ∃ o', historyBounds i o (a ++ z) = historyBounds (i + a.length) o' z ∧
      ((∀ l ∈ a, ¬ "rsr_inst history:".toList <+: l) → o' = o)
  | [], i, o, z, _ => ⟨o, rfl, fun _ => rfl⟩
  | l :: a, i, o, z, h => by
    obtain ⟨o', h1, h2⟩ := bounds_skip a (i + 1) (if "rsr_inst history:".toList <+: l then some i else o) z fun x hx => h x (List.mem_cons_of_mem _ hx)
    refine ⟨o', ?_, fun hn => ?_⟩
    · rw [List.cons_append, historyBounds]
      rw [if_neg (h l List.mem_cons_self), h1, List.length_cons, Nat.add_assoc, Nat.add_comm 1]
    · rw [h2 fun x hx => hn x (List.mem_cons_of_mem _ hx), if_neg (hn l List.mem_cons_self)]

/-- **C122**, history: from a label in which the line `rsr_inst history:` comes before the first line that begins with a quotation mark, the lines
from the last such line on to the quotation mark are taken, whatever comes before and after. -/
theorem C122_history_partial (a h z : List (List Char)) (r e : List Char) (hr : "rsr_inst history:".toList <+: r) (he : "\"".toList <+: e)
    (ha : ∀ l ∈ a ++ h, ¬ "\"".toList <+: l) (hh : ∀ l ∈ h, ¬ "rsr_inst history:".toList <+: l) :
    priorHistory (a ++ r :: (h ++ e :: z)) = .ok (r :: h) := by
  have hrq : ¬ "\"".toList <+: r := by
    rintro ⟨t, e⟩
    obtain ⟨u, e'⟩ := hr
    rw [← e'] at e
    have := congrArg List.head? e
    revert this
    simp
  have hre : ¬ "rsr_inst history:".toList <+: e := by
    rintro ⟨t, e1⟩
    obtain ⟨u, e'⟩ := he
    rw [← e'] at e1
    have := congrArg List.head? e1
    revert this
    simp
  obtain ⟨o1, h1, -⟩ := bounds_skip a 0 none (r :: (h ++ e :: z)) fun l hl => ha l (List.mem_append_left _ hl)
  obtain ⟨o2, h2, h3⟩ := bounds_skip h (0 + a.length + 1) (some (0 + a.length)) (e :: z) fun l hl => ha l (List.mem_append_right _ hl)
  have key : historyBounds 0 none (a ++ r :: (h ++ e :: z)) = (some a.length, some (a.length + 1 + h.length)) := by
    rw [h1, historyBounds]
    rw [if_neg hrq, if_pos hr, h2, historyBounds]
    rw [if_neg hre, if_pos he, h3 hh]
    simp
  unfold priorHistory
  rw [key]
  simp only [List.drop_left]
  rw [show a.length + 1 + h.length - a.length = (r :: h).length by simp; omega, ← List.cons_append, List.take_left]

example : priorHistory ["User history:".toList, "rsr_inst history:".toList, "    Run Date = now".toList, "\"".toList, "END".toList] =
    .ok ["rsr_inst history:".toList, "    Run Date = now".toList] := by decide +kernel

/-- **C122** (false): a label without the line, or with a line that begins with a quotation mark before it, ends in `UnboundLocalError`. -/
theorem C122_history_false (a z : List (List Char)) (e : List Char) (he : "\"".toList <+: e) (ha : ∀ l ∈ a, ¬ "\"".toList <+: l)
    (hr : ∀ l ∈ a, ¬ "rsr_inst history:".toList <+: l) : priorHistory (a ++ e :: z) = .error .unboundLocal := by
  have hre : ¬ "rsr_inst history:".toList <+: e := by
    rintro ⟨t, e1⟩
    obtain ⟨u, e'⟩ := he
    rw [← e'] at e1
    have := congrArg List.head? e1
    revert this
    simp
  obtain ⟨o2, h2, h3⟩ := bounds_skip a 0 none (e :: z) ha
  have key : historyBounds 0 none (a ++ e :: z) = (none, some a.length) := by
    rw [h2, historyBounds]
    rw [if_neg hre, if_pos he, h3 hr]
    simp
  unfold priorHistory
  rw [key]

example : priorHistory ["DESCRIPTION = \"A\"".toList, "\"".toList, "rsr_inst history:".toList, "\"".toList] = .error .unboundLocal :=
  C122_history_false ["DESCRIPTION = \"A\"".toList] ["rsr_inst history:".toList, "\"".toList] "\"".toList (by decide +kernel) (by decide +kernel) (by decide +kernel)

end Verif.Rev
