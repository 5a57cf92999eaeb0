import Verif.Model.Pick
import Verif.Props.C122
import Mathlib.Data.List.Forall2

/-!
# C144 The data file of an event
-/
namespace Verif.Pick
open Verif.Rsr Verif.Out Verif.Pds Verif.Rev

namespace Spec

/-- Two letters are the same but for being capital. -/
def SameLetter (a b : Char) : Prop :=
  a = b ∨ (97 ≤ a.toNat ∧ a.toNat ≤ 122 ∧ b.toNat + 32 = a.toNat) ∨ (97 ≤ b.toNat ∧ b.toNat ≤ 122 ∧ a.toNat + 32 = b.toNat)

/-- The text `s` stands in `f`, in capital or small letters. -/
def Holds (f s : List Char) : Prop := ∃ pre mid suf, f = pre ++ mid ++ suf ∧ List.Forall₂ SameLetter mid s

/-- The path of a table of the archive, with its date. -/
structure Path (p year doy : List Char) : Prop where
  four : year.length = 4
  three : doy.length = 3
  form : ∃ dirs rest, p = dirs ++ '/' :: ("RSS_".toList ++ year ++ '_' :: doy ++ rest) ∧ '/' ∉ year ∧ '/' ∉ doy ∧ '/' ∉ rest

/-- The lines of the table for an event: no comments, with the name of the revolution and of station and direction. -/
def Lines (table : List (List Char)) (rev dsn : List Char) (dir : Char) (l : List (List Char)) : Prop :=
  l.Sublist table ∧ (∀ p ∈ l, '#' ∉ p ∧ rev <:+: p ∧ (dsn ++ ['_', dir]) <:+: p) ∧
    ∀ p, '#' ∉ p → rev <:+: p → (dsn ++ ['_', dir]) <:+: p → l.count p = table.count p

end Spec
open Verif.Pick.Spec

/-! ### Capital letters -/

theorem char_eq {a b : Char} (h : a.toNat = b.toNat) : a = b := Char.ext (UInt32.toNat_inj.mp h)

theorem upper_toNat (c : Char) : (upperC c).toNat = if 97 ≤ c.toNat ∧ c.toNat ≤ 122 then c.toNat - 32 else c.toNat := by
  unfold upperC
  split
  · rename_i h
    have hv : (c.toNat - 32).isValidChar := by left; omega
    rw [Char.ofNat, dif_pos hv]
    show (Char.ofNatAux _ hv).val.toNat = _
    simp [Char.ofNatAux, UInt32.toNat]
  · rfl

theorem upper_same (a b : Char) : upperC a = upperC b ↔ SameLetter a b := by
  unfold SameLetter
  constructor
  · intro h
    have h := congrArg Char.toNat h
    rw [upper_toNat, upper_toNat] at h
    by_cases ha : 97 ≤ a.toNat ∧ a.toNat ≤ 122 <;> by_cases hb : 97 ≤ b.toNat ∧ b.toNat ≤ 122
    · rw [if_pos ha, if_pos hb] at h
      exact .inl (char_eq (by omega))
    · rw [if_pos ha, if_neg hb] at h
      exact .inr (.inl (by omega))
    · rw [if_neg ha, if_pos hb] at h
      exact .inr (.inr (by omega))
    · rw [if_neg ha, if_neg hb] at h
      exact .inl (char_eq h)
  · intro h
    apply char_eq
    rw [upper_toNat, upper_toNat]
    rcases h with rfl | ⟨h1, h2, h3⟩ | ⟨h1, h2, h3⟩
    · rfl
    · rw [if_pos ⟨h1, h2⟩, if_neg (by omega)]
      omega
    · rw [if_pos (And.intro h1 h2), if_neg (by omega)]
      omega

theorem forall_same : ∀ {s t : List Char}, s.map upperC = t.map upperC ↔ List.Forall₂ SameLetter s t
  | [], [] => by simp
  | [], b :: t => by simp
  | a :: s, [] => by simp
  | a :: s, b :: t => by simp [upper_same, forall_same (s := s) (t := t)]

theorem holds_iff (f s : List Char) : upper s <:+: upper f ↔ Holds f s := by
  unfold upper Holds
  constructor
  · rintro ⟨a, b, e⟩
    obtain ⟨x, suf, rfl, e1, -⟩ := List.map_eq_append_iff.mp e.symm
    obtain ⟨pre, mid, rfl, -, e2⟩ := List.map_eq_append_iff.mp e1
    exact ⟨pre, mid, suf, rfl, forall_same.mp e2⟩
  · rintro ⟨pre, mid, suf, rfl, h⟩
    rw [← forall_same.mpr h]
    simp only [List.map_append]
    exact ⟨_, _, rfl⟩

/-! ### The tables -/

theorem fits_iff (rev x p : List Char) : fits rev x p = true ↔ '#' ∉ p ∧ rev <:+: p ∧ x <:+: p := by
  simp [fits, and_assoc]

theorem corss_lines (table : List (List Char)) (rev dsn : List Char) (dir : Char) :
    Lines table rev (standIn rev dsn) dir (table.filter (fits rev (standIn rev dsn ++ ['_', dir]))) := by
  refine ⟨List.filter_sublist, fun p hp => (fits_iff _ _ _).mp (List.mem_filter.mp hp).2, fun p h1 h2 h3 => ?_⟩
  exact List.count_filter ((fits_iff _ _ _).mpr ⟨h1, h2, h3⟩)

/-- The lines are determined by what is asked of them. -/
theorem lines_eq {table l : List (List Char)} {rev dsn : List Char} {dir : Char} (h : Lines table rev dsn dir l) :
    l = table.filter (fits rev (dsn ++ ['_', dir])) := by
  obtain ⟨h1, h2, h3⟩ := h
  have e : l.filter (fits rev (dsn ++ ['_', dir])) = l := List.filter_eq_self.mpr fun p hp => (fits_iff _ _ _).mpr (h2 p hp)
  have hs : l.Sublist (table.filter (fits rev (dsn ++ ['_', dir]))) := by
    rw [← e]
    exact h1.filter _
  refine hs.eq_of_length (Nat.le_antisymm hs.length_le ?_)
  have hp : (table.filter (fits rev (dsn ++ ['_', dir]))).Perm l := by
    rw [List.perm_iff_count]
    intro p
    by_cases hf : fits rev (dsn ++ ['_', dir]) p = true
    · rw [List.count_filter hf]
      obtain ⟨k1, k2, k3⟩ := (fits_iff _ _ _).mp hf
      exact (h3 p k1 k2 k3).symm
    · rw [List.count_eq_zero.mpr fun hm => hf (List.mem_filter.mp hm).2, List.count_eq_zero.mpr fun hm => hf ((fits_iff _ _ _).mpr (h2 p hm))]
  exact hp.length_eq.le

theorem corss_one {table : List (List Char)} {rev dsn p : List Char} {dir : Char} (h : Lines table rev (standIn rev dsn) dir [p]) :
    corssFiles table rev dsn dir = .one p := by
  rw [corssFiles, ← lines_eq h]

theorem corss_none {table : List (List Char)} {rev dsn : List Char} {dir : Char} (h : Lines table rev (standIn rev dsn) dir []) :
    corssFiles table rev dsn dir = .many [] := by
  rw [corssFiles, ← lines_eq h]

theorem corss_many {table l : List (List Char)} {rev dsn p p' : List Char} {dir : Char} (h : Lines table rev (standIn rev dsn) dir (p :: p' :: l)) :
    corssFiles table rev dsn dir = .many (p :: p' :: l) := by
  rw [corssFiles, ← lines_eq h]

/-- `Rev064` and `Rev081` have a Ka band file that stands under another station; all other names stay. -/
theorem C144_stations (rev dsn : List Char) : standIn rev dsn = (if (rev = "Rev064".toList ∧ (dsn = "K47".toList ∨ dsn = "K34".toList)) ∨
    (rev = "Rev081".toList ∧ dsn = "K47".toList) then "X43".toList else dsn) := by
  by_cases h1 : rev = "Rev064".toList
  · subst h1
    by_cases h2 : dsn = "K47".toList
    · subst h2; decide
    · by_cases h3 : dsn = "K34".toList
      · subst h3; decide
      · unfold standIn
        simp only [h2, h3, false_and, and_false, or_false, if_false]
  · by_cases h2 : rev = "Rev081".toList
    · subst h2
      by_cases h3 : dsn = "K47".toList
      · subst h3; decide
      · unfold standIn
        simp only [h1, h3, false_and, and_false, or_false, if_false]
    · unfold standIn
      simp only [h1, h2, and_false, false_and, or_false, if_false]

example : standIn "Rev064".toList "K34".toList = "X43".toList ∧ standIn "Rev081".toList "K34".toList = "K34".toList := by decide

theorem event_of {p year doy : List Char} (h : Path p year doy) (dir : Char) : eventString dir (basename p) = dir :: year ++ doy := by
  obtain ⟨h4, h3, dirs, rest, rfl, a, b, c⟩ := h
  rw [basename_append (by simp [a, b, c])]
  match year, h4, doy, h3 with
  | [y1, y2, y3, y4], _, [d1, d2, d3], _ => simp [eventString, slice]

theorem path_ne {p year doy : List Char} (h : Path p year doy) : p ≠ [] := by
  obtain ⟨_, _, _, _, rfl, _⟩ := h
  simp

theorem search_some {files : List (List Char)} {s dsn f : List Char} (h : search files s dsn = some f) : f ∈ files ∧ Holds f s ∧ Holds f dsn := by
  unfold search at h
  have h1 := List.find?_some h
  simp only [Bool.and_eq_true, decide_eq_true_eq] at h1
  exact ⟨List.mem_of_find?_eq_some h, (holds_iff _ _).mp h1.1, (holds_iff _ _).mp h1.2⟩

theorem search_none {files : List (List Char)} {s dsn : List Char} : search files s dsn = none ↔ ∀ f ∈ files, Holds f s → ¬ Holds f dsn := by
  unfold search
  rw [List.find?_eq_none]
  simp only [Bool.and_eq_true, decide_eq_true_eq, holds_iff, not_and]

/-- The first file of the list that fits is taken. -/
theorem C144_first {files a b : List (List Char)} {s dsn f : List Char} (e : files = a ++ f :: b) (h1 : Holds f s) (h2 : Holds f dsn)
    (ha : ∀ g ∈ a, Holds g s → ¬ Holds g dsn) : search files s dsn = some f := by
  unfold search
  rw [e, List.find?_append, List.find?_eq_none.mpr, Option.none_or, List.find?_cons_of_pos]
  · simp only [Bool.and_eq_true, decide_eq_true_eq, holds_iff]
    exact ⟨h1, h2⟩
  · intro g hg
    simp only [Bool.and_eq_true, decide_eq_true_eq, holds_iff, not_and]
    exact ha g hg

theorem ce_index {p : List Char} (h : "CE".toList <:+: p) : ∃ i, index "CE".toList p = .ok i := by
  cases hi : index "CE".toList p with
  | ok i => exact ⟨i, rfl⟩
  | error e =>
    exfalso
    induction p with
    | nil => exact absurd (List.infix_nil.mp h) (by decide)
    | cons c p ih =>
      rw [index] at hi
      split at hi
      · cases hi
      · rename_i hp
        rcases List.infix_cons_iff.mp h with h | h
        · exact hp h
        · obtain ⟨j, hj⟩ : ∃ j, index "CE".toList p = .ok j := by
            cases hj : index "CE".toList p with
            | ok j => exact ⟨j, rfl⟩
            | error e' => exact (ih h (by rw [hj]; rw [hj] at hi; cases hi; rfl)).elim
          rw [hj] at hi
          cases hi

theorem index_error {q p : List Char} (hq : q ≠ []) (h : ¬ q <:+: p) : index q p = .error .value := by
  induction p with
  | nil => rw [index, if_neg hq]
  | cons c p ih =>
    rw [index, if_neg fun hp => h hp.isInfix, ih fun hi => h (hi.trans (List.suffix_cons c p).isInfix)]
    rfl

/-! ### Choice -/

theorem files_ok {t : Tables} {k16 : Bool} (h : [] ∉ t.all) :
    rsrFiles t k16 = .ok (if k16 then t.khz16 else t.all.filter fun f => f.getLast? = some '1') := by
  cases k16
  · simp only [rsrFiles, Bool.false_eq_true, if_false, oneKhz, if_neg h]
  · rfl

/-- A file that is chosen is one of the lists, belongs to the station and the day and to the direction that were asked for, or for an egress of a
chord occultation to the ingress; but for two files that are written in the program. -/
theorem C144_sound {t : Tables} {k16 : Bool} {rev dsn p year doy f : List Char} {dir : Char} (hl : Lines t.corss rev (standIn rev dsn) dir [p])
    (hp : Path p year doy) (h : pickRsr t k16 rev dir dsn = .ok (some f)) :
    (f ∈ t.khz16 ∨ (k16 = false ∧ f ∈ t.all ∧ f.getLast? = some '1')) ∧ Holds f dsn ∧
        (Holds f (dir :: year ++ doy) ∨ (dir = 'E' ∧ "CE".toList <:+: p ∧ Holds f ('I' :: year ++ doy))) ∨
      dsn = "K47".toList ∧ dir = 'E' ∧ (year ++ doy = "2008102".toList ∨ year ++ doy = "2008232".toList) ∧ Holds f dsn ∧ Holds f ('I' :: year ++ doy) := by
  have hfiles : ∃ files, rsrFiles t k16 = .ok files ∧
      ∀ g ∈ files, g ∈ t.khz16 ∨ (k16 = false ∧ g ∈ t.all ∧ g.getLast? = some '1') := by
    cases k16
    · by_cases he : [] ∈ t.all
      · simp [pickRsr, rsrFiles, oneKhz, he, bind, Except.bind] at h
      · refine ⟨_, by simp only [rsrFiles, Bool.false_eq_true, if_false, oneKhz, if_neg he]; rfl, fun g hg => ?_⟩
        obtain ⟨k1, k2⟩ := List.mem_filter.mp hg
        exact .inr ⟨rfl, k1, by simpa using k2⟩
    · exact ⟨t.khz16, rfl, fun g hg => .inl hg⟩
  obtain ⟨files, e, hf⟩ := hfiles
  have hev := fun d => event_of hp d
  simp only [pickRsr, e, bind, Except.bind, corss_one hl, if_neg (path_ne hp), hev] at h
  cases hs : search files (dir :: year ++ doy) dsn with
  | some g =>
    rw [hs] at h
    obtain rfl : g = f := by simpa [pure, Except.pure] using h
    obtain ⟨k1, k2, k3⟩ := search_some hs
    exact .inl ⟨hf _ k1, k3, .inl k2⟩
  | none =>
    rw [hs] at h
    simp only [pickLater, isChord, hev] at h
    have special_case : ∀ s, special s dsn = some f → s = dir :: year ++ doy → dsn = "K47".toList ∧ dir = 'E' ∧
        (year ++ doy = "2008102".toList ∨ year ++ doy = "2008232".toList) ∧ Holds f dsn ∧ Holds f ('I' :: year ++ doy) := by
      intro s hs' es
      unfold special at hs'
      split at hs'
      · rename_i hc
        obtain ⟨c1, c2⟩ := hc
        rw [c1] at es
        have es : 'E' :: "2008102".toList = dir :: (year ++ doy) := es
        obtain ⟨e1, e2⟩ := List.cons.inj es
        obtain rfl := Option.some.inj hs'
        refine ⟨c2, e1.symm, .inl e2.symm, ?_, ?_⟩
        · rw [c2, ← holds_iff]; decide +kernel
        · rw [List.cons_append, ← e2, ← holds_iff]; decide +kernel
      · split at hs'
        · rename_i hc
          obtain ⟨c1, c2⟩ := hc
          rw [c1] at es
          have es : 'E' :: "2008232".toList = dir :: (year ++ doy) := es
          obtain ⟨e1, e2⟩ := List.cons.inj es
          obtain rfl := Option.some.inj hs'
          refine ⟨c2, e1.symm, .inr e2.symm, ?_, ?_⟩
          · rw [c2, ← holds_iff]; decide +kernel
          · rw [List.cons_append, ← e2, ← holds_iff]; decide +kernel
        · cases hs'
    have no_special : special ('I' :: year ++ doy) dsn = none := by
      unfold special
      rw [if_neg (by rintro ⟨h, -⟩; cases h), if_neg (by rintro ⟨h, -⟩; cases h)]
    by_cases hd : dir = 'E'
    · rw [if_pos hd] at h
      by_cases hce : "CE".toList <:+: p
      · obtain ⟨i, hi⟩ := ce_index hce
        rw [hi] at h
        simp only [bind, Except.bind, pure, Except.pure] at h
        by_cases h0 : 0 < i
        · simp only [h0, decide_true, if_true] at h
          cases hs2 : search files ('I' :: year ++ doy) dsn with
          | some g =>
            rw [hs2] at h
            obtain rfl : g = f := by simpa using h
            obtain ⟨k1, k2, k3⟩ := search_some hs2
            exact .inl ⟨hf _ k1, k3, .inr ⟨hd, hce, k2⟩⟩
          | none =>
            rw [hs2] at h
            cases k16
            · simp only [Bool.false_eq_true, if_false] at h
              cases hs3 : search t.khz16 (dir :: year ++ doy) dsn with
              | some g =>
                rw [hs3] at h
                obtain rfl : g = f := by simpa using h
                obtain ⟨k1, k2, k3⟩ := search_some hs3
                exact .inl ⟨.inl k1, k3, .inl k2⟩
              | none =>
                rw [hs3] at h
                exact .inr (special_case _ (by simpa using h) rfl)
            · simp only [if_true, no_special] at h
              cases h
        · simp only [h0, decide_false, Bool.false_eq_true, if_false] at h
          cases k16
          · simp only [Bool.false_eq_true, if_false] at h
            cases hs3 : search t.khz16 (dir :: year ++ doy) dsn with
            | some g =>
              rw [hs3] at h
              obtain rfl : g = f := by simpa using h
              obtain ⟨k1, k2, k3⟩ := search_some hs3
              exact .inl ⟨.inl k1, k3, .inl k2⟩
            | none =>
              rw [hs3] at h
              exact .inr (special_case _ (by simpa using h) rfl)
          · simp only [if_true] at h
            exact .inr (special_case _ (by simpa using h) rfl)
      · rw [index_error (by decide) hce] at h
        cases h
    · simp only [if_neg hd, bind, Except.bind, pure, Except.pure, Bool.false_eq_true, if_false] at h
      cases k16
      · simp only [Bool.false_eq_true, if_false] at h
        cases hs3 : search t.khz16 (dir :: year ++ doy) dsn with
        | some g =>
          rw [hs3] at h
          obtain rfl : g = f := by simpa using h
          obtain ⟨k1, k2, k3⟩ := search_some hs3
          exact .inl ⟨.inl k1, k3, .inl k2⟩
        | none =>
          rw [hs3] at h
          exact .inr (special_case _ (by simpa using h) rfl)
      · simp only [if_true] at h
        exact .inr (special_case _ (by simpa using h) rfl)

/-- When the table has one line for the event and the list of 16 kHz files one that fits, a file is chosen, for an ingress and for the egress of a
chord occultation.  (Full claim: for every event; see `C144_egress_false` and `C144_several_false`.) -/
theorem C144_found_partial {t : Tables} {k16 : Bool} {rev dsn p year doy : List Char} {dir : Char} (hl : Lines t.corss rev (standIn rev dsn) dir [p])
    (hp : Path p year doy) (he : [] ∉ t.all) (hd : dir = 'E' → "CE".toList <:+: p) {g : List Char} (hg : g ∈ t.khz16) (h1 : Holds g (dir :: year ++ doy))
    (h2 : Holds g dsn) : ∃ f, pickRsr t k16 rev dir dsn = .ok (some f) := by
  have hev := fun d => event_of hp d
  have h16 : ∃ f, search t.khz16 (dir :: year ++ doy) dsn = some f := by
    cases hs : search t.khz16 (dir :: year ++ doy) dsn with
    | some f => exact ⟨f, rfl⟩
    | none => exact absurd h2 (search_none.mp hs g hg h1)
  obtain ⟨f, hf⟩ := h16
  simp only [pickRsr, files_ok he, bind, Except.bind, corss_one hl, if_neg (path_ne hp), hev]
  cases k16
  · simp only [Bool.false_eq_true, if_false]
    cases hs : search (t.all.filter fun f => f.getLast? = some '1') (dir :: year ++ doy) dsn with
    | some a => exact ⟨a, rfl⟩
    | none =>
      simp only [pickLater, isChord, hev]
      by_cases hE : dir = 'E'
      · obtain ⟨i, hi⟩ := ce_index (hd hE)
        simp only [if_pos hE, hi, bind, Except.bind, pure, Except.pure, Bool.false_eq_true, if_false]
        split
        · exact ⟨_, rfl⟩
        · exact ⟨f, by rw [hf]⟩
      · simp only [if_neg hE, bind, Except.bind, pure, Except.pure, Bool.false_eq_true, if_false]
        exact ⟨f, by rw [hf]⟩
  · simp only [if_true, hf]
    exact ⟨f, rfl⟩

/-- For the egress of an occultation that is not a chord the search ends with a `ValueError` when the list has no such file: neither are the 16 kHz files
searched nor is `None` returned. -/
theorem C144_egress_false {t : Tables} {k16 : Bool} {rev dsn p year doy : List Char} (hl : Lines t.corss rev (standIn rev dsn) 'E' [p])
    (hp : Path p year doy) (he : [] ∉ t.all) (hc : ¬ "CE".toList <:+: p)
    (hn : ∀ f ∈ (if k16 then t.khz16 else t.all.filter fun f => f.getLast? = some '1'), Holds f ('E' :: year ++ doy) → ¬ Holds f dsn) :
    pickRsr t k16 rev 'E' dsn = .error .value := by
  have hev := fun d => event_of hp d
  simp only [pickRsr, files_ok he, bind, Except.bind, corss_one hl, if_neg (path_ne hp), hev, search_none.mpr hn, pickLater, isChord, if_true,
    index_error (show "CE".toList ≠ [] by decide) hc]

/-- An event that is not in the table gives an exception, not `None`. -/
theorem C144_missing_false {t : Tables} {k16 : Bool} {rev dsn : List Char} {dir : Char} (hl : Lines t.corss rev (standIn rev dsn) dir []) (he : [] ∉ t.all) :
    pickRsr t k16 rev dir dsn = .error (if dir = 'E' then .value else .unboundLocal) := by
  simp only [pickRsr, files_ok he, bind, Except.bind, corss_none hl]
  split <;> rfl

/-- An event with two lines in the table gives a `TypeError`. -/
theorem C144_several_false {t : Tables} {k16 : Bool} {rev dsn p p' : List Char} {l : List (List Char)} {dir : Char}
    (hl : Lines t.corss rev (standIn rev dsn) dir (p :: p' :: l)) (he : [] ∉ t.all) : pickRsr t k16 rev dir dsn = .error .type := by
  simp only [pickRsr, files_ok he, bind, Except.bind, corss_many hl]

/-! ### Lines of the tables -/

/-- Some lines of the tables in the directory `tables`. -/
def demo : Tables where
  khz16 := ["co-s-rss-1-sroc1-v10/cors_0108/sroc1_123/rsr/s10sroi2005123_0230nnnx43rd.2a2".toList]
  all := ["co-s-rss-1-sroc1-v10/cors_0727/SROC1_141/RSR/S11SROE2005141_1228NNNX63RD.1A1".toList,
    "co-s-rss-1-sroc1-v10/cors_0108/sroc1_123/rsr/s10sroi2005123_0230nnnx43rd.2a2".toList]
  corss := ["# created using".toList, "CORSS_8001/data/Rev007/Rev007I/Rev007I_RSS_2005_123_X43_I/RSS_2005_123_X43_I_TAU_01KM.TAB".toList,
    "CORSS_8001/data/Rev008/Rev008E/Rev008E_RSS_2005_141_X63_E/RSS_2005_141_X63_E_TAU_01KM.TAB".toList,
    "CORSS_8001/data/Rev028/Rev028I/Rev028I_RSS_2006_258_K34_I/RSS_2006_258_K34_I_TAU_01KM.TAB".toList,
    "CORSS_8001/data/Rev028/Rev028I/Rev028I_RSS_2006_259_K34_I/RSS_2006_259_K34_I_TAU_01KM.TAB".toList]

/-- Rev007 ingress has no file of 1 kHz, the one of 16 kHz is taken; Rev008 egress at 1 kHz is there, at 16 kHz it is a `ValueError`; Rev028 ingress has two days. -/
example : pickRsr demo false "Rev007".toList 'I' "X43".toList =
      .ok (some "co-s-rss-1-sroc1-v10/cors_0108/sroc1_123/rsr/s10sroi2005123_0230nnnx43rd.2a2".toList) ∧
    pickRsr demo false "Rev008".toList 'E' "X63".toList =
      .ok (some "co-s-rss-1-sroc1-v10/cors_0727/SROC1_141/RSR/S11SROE2005141_1228NNNX63RD.1A1".toList) ∧
    pickRsr demo true "Rev008".toList 'E' "X63".toList = .error .value ∧
    pickRsr demo true "Rev028".toList 'I' "K34".toList = .error .type ∧
    pickRsr demo true "Rev007".toList 'I' "X26".toList = .error .unboundLocal ∧
    pickRsr demo true "Rev007".toList 'E' "X26".toList = .error .value := by decide +kernel

example : Path "CORSS_8001/data/Rev007/Rev007I/Rev007I_RSS_2005_123_X43_I/RSS_2005_123_X43_I_TAU_01KM.TAB".toList "2005".toList "123".toList :=
  ⟨rfl, rfl, "CORSS_8001/data/Rev007/Rev007I/Rev007I_RSS_2005_123_X43_I".toList, "_X43_I_TAU_01KM.TAB".toList, by decide +kernel⟩

example : Lines demo.corss "Rev007".toList "X43".toList 'I' ["CORSS_8001/data/Rev007/Rev007I/Rev007I_RSS_2005_123_X43_I/RSS_2005_123_X43_I_TAU_01KM.TAB".toList] := by
  have := corss_lines demo.corss "Rev007".toList "X43".toList 'I'
  have e : demo.corss.filter (fits "Rev007".toList (standIn "Rev007".toList "X43".toList ++ ['_', 'I'])) =
    ["CORSS_8001/data/Rev007/Rev007I/Rev007I_RSS_2005_123_X43_I/RSS_2005_123_X43_I_TAU_01KM.TAB".toList] := by decide +kernel
  rw [e] at this
  exact this

example : Holds "s10sroi2005123_0230nnnx43rd.2a2".toList "X43".toList ∧ Holds "s10sroi2005123_0230nnnx43rd.2a2".toList "I2005123".toList := by
  rw [← holds_iff, ← holds_iff]; decide +kernel

end Verif.Pick
