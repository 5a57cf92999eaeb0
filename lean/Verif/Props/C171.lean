import Verif.Model.BatchJobs
import Verif.Props.C122
import Verif.Props.C127
import Verif.Props.C141
import Verif.Props.C145

/-!
# C171 to C173: the DLP file and the directory that a job finds, and the GEO file of a TAU file

pipeline/batch_parallel_CSVtoTAU_template-20260130a.py, pipeline/edge_fit_batch.py.
-/
namespace Verif.Jobs
open Verif Verif.Web Verif.Rev Verif.Out Verif.Pds

/-! ## C171 -/

theorem glob_star (p : List Char) : ∀ s : List Char, glob ('*' :: p) s = true ↔ ∃ a b, s = a ++ b ∧ glob p b = true
  | [] => by
    rw [glob, if_pos rfl]
    constructor
    · exact fun h => ⟨[], [], rfl, h⟩
    · rintro ⟨a, b, h, hb⟩
      rw [(List.append_eq_nil_iff.mp h.symm).2] at hb
      exact hb
  | c :: s => by
    rw [glob, if_pos rfl, Bool.or_eq_true, glob_star p s]
    constructor
    · rintro (h | ⟨a, b, rfl, h⟩)
      · exact ⟨[], c :: s, rfl, h⟩
      · exact ⟨c :: a, b, rfl, h⟩
    · rintro ⟨a, b, h, hb⟩
      cases a with
      | nil => exact .inl (by rw [h]; exact hb)
      | cons d a =>
        rw [List.cons_append, List.cons.injEq] at h
        exact .inr ⟨a, b, h.2, hb⟩

theorem glob_text {p : List Char} : ∀ {q : List Char}, '*' ∉ q → '?' ∉ q → ∀ s : List Char,
    glob (q ++ p) s = true ↔ ∃ b, s = q ++ b ∧ glob p b = true
  | [], _, _, s => by simp
  | x :: q, h1, h2, [] => by
    rw [List.mem_cons, not_or] at h1
    rw [List.cons_append, glob, if_neg (Ne.symm h1.1)]
    simp
  | x :: q, h1, h2, c :: s => by
    rw [List.mem_cons, not_or] at h1 h2
    rw [List.cons_append, glob, if_neg (Ne.symm h1.1), if_neg (Ne.symm h2.1), Bool.and_eq_true, decide_eq_true_eq, glob_text h1.2 h2.2 s]
    constructor
    · rintro ⟨rfl, b, rfl, h⟩
      exact ⟨b, rfl, h⟩
    · rintro ⟨b, h, hb⟩
      rw [List.cons_append, List.cons.injEq] at h
      exact ⟨h.1.symm, b, h.2, hb⟩

theorem glob_end {q : List Char} (h1 : '*' ∉ q) (h2 : '?' ∉ q) (s : List Char) : glob q s = true ↔ s = q := by
  have := glob_text (p := []) h1 h2 s
  rw [List.append_nil] at this
  rw [this]
  constructor
  · rintro ⟨b, rfl, h⟩
    rw [glob, List.isEmpty_iff] at h
    rw [h, List.append_nil]
  · rintro rfl
    exact ⟨[], by simp, by simp [glob]⟩

/-- What a pattern of `glob` matches, by the manual: a star any text, a question mark any one character, and every other character itself. -/
inductive Spec.Matches : List Char → List Char → Prop
  | nil : Spec.Matches [] []
  | star {p b : List Char} (a : List Char) : Spec.Matches p b → Spec.Matches ('*' :: p) (a ++ b)
  | one {p b : List Char} (c : Char) : Spec.Matches p b → Spec.Matches ('?' :: p) (c :: b)
  | char {p b : List Char} {c : Char} : c ≠ '*' → c ≠ '?' → Spec.Matches p b → Spec.Matches (c :: p) (c :: b)

/-- **C171.** The searches of the model are those of the manual. -/
theorem C171_glob : ∀ p s : List Char, glob p s = true ↔ Spec.Matches p s
  | [], s => by
    rw [glob, List.isEmpty_iff]
    exact ⟨fun h => h ▸ .nil, fun h => by cases h; rfl⟩
  | x :: p, s => by
    by_cases h1 : x = '*'
    · subst h1
      rw [glob_star]
      constructor
      · rintro ⟨a, b, rfl, h⟩
        exact .star a ((C171_glob p b).mp h)
      · intro h
        cases h with
        | star a h => exact ⟨a, _, rfl, (C171_glob p _).mpr h⟩
        | char h => exact absurd rfl h
    · cases s with
      | nil =>
        rw [glob, if_neg h1]
        refine ⟨fun h => absurd h Bool.false_ne_true, fun h => ?_⟩
        generalize hn : ([] : List Char) = t at h
        cases h with
        | star a h => exact absurd rfl h1
        | one c h => cases hn
        | char a b h => cases hn
      | cons c s =>
        rw [glob, if_neg h1]
        by_cases h2 : x = '?'
        · subst h2
          rw [if_pos rfl, C171_glob p s]
          refine ⟨fun h => .one c h, fun h => ?_⟩
          cases h with
          | one c h => exact h
          | char a b h => exact absurd rfl b
        · rw [if_neg h2, Bool.and_eq_true, decide_eq_true_eq, C171_glob p s]
          constructor
          · rintro ⟨rfl, h⟩
            exact .char h1 h2 h
          · intro h
            generalize hn : c :: s = t at h
            cases h with
            | star a h => exact absurd rfl h1
            | one c h => exact absurd rfl h2
            | char a b h => cases hn; exact ⟨rfl, h⟩

example : Spec.Matches "a?*c".toList "abxyc".toList := .char (by decide) (by decide) (.one 'b' (.star ['x', 'y'] (.char (by decide) (by decide) .nil)))

theorem digits_plain {q : List Char} (h : q.all isDigit) : '*' ∉ q ∧ '?' ∉ q ∧ 'M' ∉ q ∧ '_' ∉ q := by
  have h := List.all_eq_true.mp h
  exact ⟨fun hc => absurd (h _ hc) (by decide), fun hc => absurd (h _ hc) (by decide), fun hc => absurd (h _ hc) (by decide),
    fun hc => absurd (h _ hc) (by decide)⟩

theorem split_unique {c : Char} : ∀ {a b x y : List Char}, c ∉ a → c ∉ x → a ++ c :: b = x ++ c :: y → a = x ∧ b = y
  | [], b, [], y, _, _, h => ⟨rfl, (List.cons.inj h).2⟩
  | [], b, d :: x, y, _, hx, h => absurd ((List.cons.inj h).1 ▸ List.mem_cons_self) hx
  | d :: a, b, [], y, ha, _, h => absurd ((List.cons.inj h).1 ▸ List.mem_cons_self) ha
  | d :: a, b, e :: x, y, ha, hx, h => by
    obtain ⟨h1, h2⟩ := List.cons.inj h
    obtain ⟨h3, h4⟩ := split_unique (fun hc => ha (List.mem_cons_of_mem _ hc)) (fun hc => hx (List.mem_cons_of_mem _ hc)) h2
    exact ⟨by rw [h1, h3], h4⟩

/-- The name of a DLP file: what precedes the type, the digits of the resolution, the date. -/
def dlpName (pre digits date : List Char) : List Char := pre ++ "DLP_".toList ++ digits ++ "M_".toList ++ date ++ "_0001.TAB".toList

/-- Which names the pattern stands for. -/
theorem glob_dlp {q pre digits date : List Char} (hq : q.all isDigit) (hd : digits.all isDigit) (hp : 'M' ∉ pre) (ht : 'M' ∉ date)
    (hl : q.length ≤ digits.length) : glob (dlpPattern q) (dlpName pre digits date) = true ↔ q <:+ digits := by
  obtain ⟨q1, q2, q3, -⟩ := digits_plain hq
  obtain ⟨-, -, d3, -⟩ := digits_plain hd
  generalize hD : "DLP_".toList = D
  generalize hM : "M_".toList = M
  generalize hE : "_0001.TAB".toList = E
  have eM : M = ['M', '_'] := by rw [← hM]; decide +kernel
  have D1 : '*' ∉ D ∧ '?' ∉ D ∧ 'M' ∉ D := by rw [← hD]; decide +kernel
  have E1 : '*' ∉ E ∧ '?' ∉ E ∧ 'M' ∉ E := by rw [← hE]; decide +kernel
  have M1 : '*' ∉ M ∧ '?' ∉ M := by rw [← hM]; decide +kernel
  have qM1 : '*' ∉ q ++ M := by simp [q1, M1.1]
  have qM2 : '?' ∉ q ++ M := by simp [q2, M1.2]
  rw [dlpPattern, dlpName, hD, hM, hE, glob_star]
  simp only [glob_text D1.1 D1.2.1, glob_star, glob_text qM1 qM2, glob_end E1.1 E1.2.1]
  constructor
  · rintro ⟨a, _, h, _, rfl, b, _, rfl, _, rfl, c, e, rfl, he⟩
    rw [he] at h
    have h' : (pre ++ D ++ digits) ++ 'M' :: ('_' :: (date ++ E)) = (a ++ D ++ b ++ q) ++ 'M' :: ('_' :: (c ++ E)) := by
      simpa [eM, List.append_assoc] using h
    have hM' : 'M' ∉ a ++ D ++ b ++ q := by
      have hcnt := congrArg (List.count 'M') h'
      have z1 : List.count 'M' (pre ++ D ++ digits) = 0 := List.count_eq_zero.mpr (by simp [hp, D1.2.2, d3])
      have z2 : List.count 'M' ('_' :: (date ++ E)) = 0 := List.count_eq_zero.mpr (by simp [ht, E1.2.2])
      rw [List.count_append (l₁ := pre ++ D ++ digits), List.count_cons_self, List.count_append (l₁ := a ++ D ++ b ++ q), List.count_cons_self, z1, z2] at hcnt
      exact List.count_eq_zero.mp (by omega)
    obtain ⟨e', -⟩ := split_unique (by simp [hp, D1.2.2, d3]) hM' h'
    have s1 : digits <:+ a ++ D ++ b ++ q := by rw [← e']; exact List.suffix_append _ _
    exact List.suffix_of_suffix_length_le (List.suffix_append _ _) s1 hl
  · rintro ⟨b, rfl⟩
    exact ⟨pre, D ++ (b ++ q) ++ M ++ date ++ E, by simp [List.append_assoc], (b ++ q) ++ M ++ date ++ E, by simp [List.append_assoc], b,
      q ++ M ++ (date ++ E), by simp [List.append_assoc], date ++ E, by simp [List.append_assoc], date, E, rfl, rfl⟩

/-- **C171, in part.** Among the DLP files of the standard resolutions the search finds exactly those of the resolution that is looked for. -/
theorem C171_standard_partial {pre date : List Char} (hp : 'M' ∉ pre) (ht : 'M' ∉ date) {m n : Nat} (hm : m ∈ Out.Spec.standard) (hn : n ∈ Out.Spec.standard) :
    glob (dlpPattern (decimal m)) (dlpName pre (zfillInt 4 n) date) = true ↔ n = m := by
  have hs : ∀ m ∈ Out.Spec.standard, ∀ n ∈ Out.Spec.standard, (decimal m).length ≤ (zfillInt 4 n).length ∧ ((decimal m) <:+ zfillInt 4 n ↔ n = m) := by
    decide +kernel
  rw [glob_dlp (value_decimal m).2.1 (zfill_padded (by norm_num) n).1 hp ht (hs m hm n hn).1]
  exact (hs m hm n hn).2

example : glob (dlpPattern "50".toList) "RSS_2005_123_X43_E_DLP_0050M_20260101_0001.TAB".toList = true := by decide +kernel

/-- **C171, in general, is false.** The search for a resolution of two digits finds every file whose resolution ends with them. -/
theorem C171_ending_false {pre date : List Char} (hp : 'M' ∉ pre) (ht : 'M' ∉ date) {m k : Nat} (hm : m ∈ [10, 20, 40, 50]) (hk : k < 100) :
    glob (dlpPattern (decimal m)) (dlpName pre (zfillInt 4 (100 * k + m : Nat)) date) = true := by
  have hs : ∀ m ∈ [10, 20, 40, 50], ∀ k < 100, (decimal m).length ≤ (zfillInt 4 (100 * k + m : Nat)).length ∧ (decimal m) <:+ zfillInt 4 (100 * k + m : Nat) := by
    decide +kernel
  rw [glob_dlp (value_decimal m).2.1 (zfill_padded (by norm_num) _).1 hp ht (hs m hm k hk).1]
  exact (hs m hm k hk).2

/-- 250 m, where 50 m are looked for. -/
example : glob (dlpPattern "50".toList) "RSS_2005_123_X43_E_DLP_0250M_20260101_0001.TAB".toList = true := by decide +kernel

/-! ## C172 -/

/-- The directories of the station and direction. -/
def fitting (string : List Char) (ds : List Dir) : List Dir := ds.filter fun d => decide (string <:+: d.path)

theorem search_skip {string : List Char} : ∀ {ds : List Dir} {m : Meaning} {r : Option ((List Char × List Char × List Char) × (ℤ × ℤ))},
    fitting string ds = [] → search string ds m r = some r
  | [], _, _, _ => by rw [search]
  | d :: ds, m, r, h => by
    rw [fitting, List.filter_cons] at h
    split at h
    · cases h
    · rename_i hd
      rw [search, if_neg (by simpa using hd), search_skip h]

theorem search_answer {string : List Char} : ∀ {ds : List Dir} {b : Bool} {r : Option ((List Char × List Char × List Char) × (ℤ × ℤ))},
    fitting string ds ≠ [] → search string ds (.answer b) r = none
  | [], _, _, h => absurd rfl h
  | d :: ds, b, r, h => by
    rw [fitting, List.filter_cons] at h
    split at h
    · rename_i hd
      rw [search, if_pos (by simpa using hd)]
      rfl
    · rename_i hd
      rw [search, if_neg (by simpa using hd)]
      exact search_answer h

/-- **C172, in part.** With one directory for the station and direction its files and the range for them are used, if they are found and the
checks succeed, and otherwise the program ends with an exception. -/
theorem C172_one_partial {string : List Char} {ds : List Dir} {d : Dir} (h : fitting string ds = [d]) :
    program string ds = match d.files, d.range with
      | some f, some r => if d.valid = true ∧ d.dlp.1 ≤ r.1 ∧ r.1 ≤ d.dlp.2 then some (f, r) else none
      | _, _ => none := by
  have : ∀ ds : List Dir, fitting string ds = [d] → search string ds .function none = match d.files, d.range with
      | some f, some r => if d.valid = true ∧ d.dlp.1 ≤ r.1 ∧ r.1 ≤ d.dlp.2 then some (some (f, r)) else none
      | _, _ => none := by
    intro ds
    induction ds with
    | nil => intro h; cases h
    | cons e ds ih =>
      intro h
      rw [fitting, List.filter_cons] at h
      split at h
      · rename_i he
        obtain ⟨rfl, h'⟩ := List.cons.inj h
        rw [search, if_pos (by simpa using he), visit]
        cases hf : e.files with
        | none => rfl
        | some f =>
          cases hr : e.range with
          | none => rfl
          | some r =>
            simp only
            by_cases hv : e.valid = true
            · rw [if_neg (by rw [hv]; decide)]
              by_cases hc : e.dlp.1 ≤ r.1 ∧ (r.1 : ℚ) ≤ e.dlp.2
              · rw [if_neg, if_pos ⟨hv, hc⟩]
                · exact search_skip h'
                · rintro (h1 | h1)
                  · exact absurd hc.1 (not_le.mpr h1)
                  · exact absurd hc.2 (not_le.mpr h1)
              · rw [if_pos, if_neg fun h => hc h.2]
                by_contra hn
                rw [not_or] at hn
                exact hc ⟨not_lt.mp hn.1, not_lt.mp hn.2⟩
            · rw [if_pos (by simpa using hv), if_neg fun h => hv h.1]
      · rename_i he
        rw [search, if_neg (by simpa using he)]
        exact ih h
  rw [program, this ds h]
  cases d.files with
  | none => rfl
  | some f =>
    cases d.range with
    | none => rfl
    | some r =>
      simp only
      split <;> rfl

/-- A directory. -/
def dirX : Dir := ⟨"Rev007E/Rev007E_RSS_2005_123_X43_E".toList, some (['g'], ['c'], ['d']), some (74400, 97000), true, (70000, 100000)⟩

example : program "X43_E".toList [dirX, { dirX with path := "K34_E".toList }] = some ((['g'], ['c'], ['d']), (74400, 97000)) := by
  rw [C172_one_partial (d := dirX)
    (by rw [fitting, List.filter_cons_of_pos (by decide +kernel), List.filter_cons_of_neg (by decide +kernel), List.filter_nil])]
  rw [show dirX.files = some (['g'], ['c'], ['d']) from rfl, show dirX.range = some (74400, 97000) from rfl]
  simp only
  have e : dirX.dlp = (70000, 100000) := rfl
  rw [e, if_pos ⟨rfl, by norm_num, by norm_num⟩]

/-- **C172.** Without a directory the program ends with an exception. -/
theorem C172_missing {string : List Char} {ds : List Dir} (h : fitting string ds = []) : program string ds = none := by
  rw [program, search_skip h]
  rfl

example : program "K34_E".toList [dirX] = none := C172_missing (by decide +kernel)

/-- **C172, in general, is false.** With two directories for the station and direction (the two passes of a chord occultation) no file is
reconstructed, whatever they hold: the first check has made the name of the function that of its answer. -/
theorem C172_two_false {string : List Char} : ∀ {ds : List Dir}, 2 ≤ (fitting string ds).length → program string ds = none
  | ds, h => by
    have : ∀ (ds : List Dir) (r : Option ((List Char × List Char × List Char) × (ℤ × ℤ))), 2 ≤ (fitting string ds).length →
        search string ds .function r = none := by
      intro ds
      induction ds with
      | nil => intro r h; simp [fitting] at h
      | cons e ds ih =>
        intro r h
        rw [fitting, List.filter_cons] at h
        split at h
        · rename_i he
          have h' : fitting string ds ≠ [] := by
            intro hn
            rw [fitting] at hn
            rw [hn] at h
            simp at h
          rw [search, if_pos (by simpa using he)]
          cases visit e .function with
          | none => rfl
          | some x => exact search_answer h'
        · rename_i he
          rw [search, if_neg (by simpa using he)]
          exact ih r h
    rw [program, this ds none h]
    rfl

example : program "X43_E".toList [dirX, dirX] = none := C172_two_false (by decide +kernel)

/-! ## C173 -/

namespace Spec

/-- The name of a TAU file: year, day of the year, station, direction, resolution, date and version. -/
def tauName (y doy st dir res date ver : List Char) : List Char :=
  "RSS_".toList ++ y ++ '_' :: (doy ++ '_' :: (st ++ '_' :: (dir ++ "_TAU_".toList ++ res ++ '_' :: (date ++ '_' :: ver))))

/-- The name of a GEO file of the same event. -/
def geoOf (y doy st dir date ver : List Char) : List Char :=
  "RSS_".toList ++ y ++ '_' :: (doy ++ '_' :: (st ++ '_' :: (dir ++ "_GEO_".toList ++ date ++ '_' :: ver)))

/-- A part of a name. -/
def Part (s : List Char) : Prop := '_' ∉ s

/-- Version `n`, at the end of the name. -/
def version (n : Nat) : List Char := zfillInt 4 n ++ ".TAB".toList

/-- The eight digits of a date. -/
def dateText (y m d : Nat) : List Char := zfillInt 4 y ++ zfillInt 2 m ++ zfillInt 2 d

end Spec
open Verif.Jobs.Spec (tauName geoOf Part version dateText)

theorem split_tau {y doy st dir res date ver : List Char} (h1 : Part y) (h2 : Part doy) (h3 : Part st) (h4 : Part dir) (h5 : Part res)
    (h6 : Part date) (h7 : Part ver) :
    splitOn '_' (tauName y doy st dir res date ver) = ["RSS".toList, y, doy, st, dir, "TAU".toList, res, date, ver] := by
  have e : tauName y doy st dir res date ver = "RSS".toList ++ '_' :: (y ++ '_' :: (doy ++ '_' :: (st ++ '_' :: (dir ++ '_' ::
      ("TAU".toList ++ '_' :: (res ++ '_' :: (date ++ '_' :: ver))))))) := by
    have a : "RSS_".toList = "RSS".toList ++ ['_'] := by decide +kernel
    have b : "_TAU_".toList = '_' :: "TAU".toList ++ ['_'] := by decide +kernel
    rw [tauName, a, b]
    simp [List.append_assoc]
  have r : '_' ∉ "RSS".toList := by decide +kernel
  have t : '_' ∉ "TAU".toList := by decide +kernel
  simp only [e, Verif.Pick.splitOn_append, splitOn_none h1, splitOn_none h2, splitOn_none h3, splitOn_none h4, splitOn_none h5, splitOn_none h6,
    splitOn_none h7, splitOn_none r, splitOn_none t, List.singleton_append]

theorem geo_nine (y doy st dir t res date ver : List Char) :
    geoName ["RSS".toList, y, doy, st, dir, t, res, date, ver] = geoOf y doy st dir date ver := by
  have a : "RSS_".toList = "RSS".toList ++ ['_'] := by decide +kernel
  have b : "_GEO_".toList = '_' :: "GEO".toList ++ ['_'] := by decide +kernel
  rw [geoOf, a, b, geoName, b]
  simp [joinU, List.append_assoc]

/-- **C173.** The GEO file of the same date and version is read, if there is one. -/
theorem C173_same {ex : List Char → Bool} {y doy st dir res date ver : List Char} (h1 : Part y) (h2 : Part doy) (h3 : Part st)
    (h4 : Part dir) (h5 : Part res) (h6 : Part date) (h7 : Part ver) (h : ex (geoOf y doy st dir date ver) = true) :
    geoFile ex (tauName y doy st dir res date ver) = some (geoOf y doy st dir date ver) := by
  simp only [geoFile, split_tau h1 h2 h3 h4 h5 h6 h7, geo_nine, h, if_true]

example : geoFile (fun _ => true) "RSS_2005_123_X43_E_TAU_01000M_20260115_0012.TAB".toList = some "RSS_2005_123_X43_E_GEO_20260115_0012.TAB".toList := by
  decide +kernel

theorem le_width {l : List (List Char)} {w : List Char} (h : w ∈ l) : w.length ≤ width l := by
  have : ∀ (l : List Nat) (a : Nat), a ≤ l.foldl max a ∧ ∀ x ∈ l, x ≤ l.foldl max a := by
    intro l
    induction l with
    | nil => intro a; exact ⟨le_refl _, fun x hx => by cases hx⟩
    | cons b l ih =>
      intro a
      rw [List.foldl_cons]
      obtain ⟨i1, i2⟩ := ih (max a b)
      refine ⟨le_trans (le_max_left _ _) i1, fun x hx => ?_⟩
      rcases List.mem_cons.mp hx with rfl | hx
      · exact le_trans (le_max_right _ _) i1
      · exact i2 x hx
  exact (this _ 0).2 _ (List.mem_map_of_mem h)

theorem version_small : ∀ n < 10, version n = "000".toList ++ [Char.ofNat (48 + n)] ++ ".TAB".toList := by decide +kernel

/-- **C173, in part.** Else, for the versions from 2 to 9, the GEO file of the version before is read. -/
theorem C173_version_partial {ex : List Char → Bool} {y doy st dir res date : List Char} (h1 : Part y) (h2 : Part doy) (h3 : Part st)
    (h4 : Part dir) (h5 : Part res) (h6 : Part date) {n : Nat} (hn : 2 ≤ n) (hn' : n ≤ 9)
    (h : ex (geoOf y doy st dir date (version n)) = false) :
    geoFile ex (tauName y doy st dir res date (version n)) = some (geoOf y doy st dir date (version (n - 1))) := by
  have h7 : Part (version n) := by
    have : ∀ n < 10, '_' ∉ version n := by decide +kernel
    exact this n (by omega)
  have hv : ∀ n < 10, 2 ≤ n → (version n).reverse[4]? = some (Char.ofNat (48 + n)) ∧ Char.ofNat (48 + n) ≠ '1' ∧ isDigit (Char.ofNat (48 + n)) = true ∧
      "000".toList ++ zfillInt 0 ((value [Char.ofNat (48 + n)] : ℤ) - 1) ++ ".TAB".toList = version (n - 1) ∧ (version (n - 1)).length ≤ (version n).length := by
    decide +kernel
  obtain ⟨v1, v2, v3, v4, v5⟩ := hv n (by omega) hn
  have hp : previous ["RSS".toList, y, doy, st, dir, "TAU".toList, res, date, version n] =
      some ["RSS".toList, y, doy, st, dir, "TAU".toList, res, date, version (n - 1)] := by
    rw [previous]
    simp only [List.reverse_cons, List.reverse_nil, List.nil_append, List.cons_append, v1, if_neg v2, v3, if_true, v4]
    rw [List.take_of_length_le (le_trans v5 (le_width (by simp)))]
  simp only [geoFile, split_tau h1 h2 h3 h4 h5 h6 h7, geo_nine, h, Bool.false_eq_true, if_false, hp, Option.map_some]

example : geoFile (fun _ => false) "RSS_2005_123_X43_E_TAU_01000M_20260115_0003.TAB".toList = some "RSS_2005_123_X43_E_GEO_20260115_0002.TAB".toList := by
  decide +kernel

theorem date_spec {y m d : Nat} (hy : y < 10000) (hm : m < 100) (hd : d < 100) :
    (dateText y m d).length = 8 ∧ (dateText y m d).all isDigit ∧ value (dateText y m d) = y * 10000 + m * 100 + d := by
  obtain ⟨a1, a2, a3, a4⟩ := zfill_padded (w := 4) (by norm_num) y
  obtain ⟨b1, b2, b3, b4⟩ := zfill_padded (w := 2) (by norm_num) m
  obtain ⟨c1, c2, c3, c4⟩ := zfill_padded (w := 2) (by norm_num) d
  have la : (zfillInt 4 y).length = 4 := by by_contra hc; have := a4 (by omega); omega
  have lb : (zfillInt 2 m).length = 2 := by by_contra hc; have := b4 (by omega); omega
  have lc : (zfillInt 2 d).length = 2 := by by_contra hc; have := c4 (by omega); omega
  refine ⟨by rw [dateText, List.length_append, List.length_append, la, lb, lc], by rw [dateText, List.all_append, List.all_append, a1, b1, c1]; rfl, ?_⟩
  rw [dateText, value_append, value_append, a2, b2, c2, lb, lc]
  ring

/-- **C173, in part.** For version 1 it is the GEO file of version 1 of the day before, if that is in the same month. -/
theorem C173_day_partial {ex : List Char → Bool} {y doy st dir res : List Char} (h1 : Part y) (h2 : Part doy) (h3 : Part st) (h4 : Part dir)
    (h5 : Part res) {yy m d : Nat} (hy : 1000 ≤ yy) (hy' : yy < 10000) (hm : m < 100) (hd : 1 ≤ d) (hd' : d < 100)
    (h : ex (geoOf y doy st dir (dateText yy m d) (version 1)) = false) :
    geoFile ex (tauName y doy st dir res (dateText yy m d) (version 1)) = some (geoOf y doy st dir (dateText yy m (d - 1)) (version 1)) := by
  obtain ⟨e1, e2, e3⟩ := date_spec hy' hm hd'
  obtain ⟨f1, f2, f3⟩ := date_spec hy' hm (show d - 1 < 100 by omega)
  have h6 : Part (dateText yy m d) := (digits_plain e2).2.2.2
  have h7 : Part (version 1) := by unfold Part; decide +kernel
  have hv : (version 1).reverse[4]? = some '1' ∧ (version 1).length = 8 := by decide +kernel
  have hz : zfillInt 0 ((value (dateText yy m d) : ℤ) - 1) = dateText yy m (d - 1) := by
    have hi : (value (dateText yy m d) : ℤ) - 1 = ((value (dateText yy m (d - 1)) : Nat) : ℤ) := by rw [e3, f3]; omega
    have hz0 : zfillInt 0 ((value (dateText yy m (d - 1)) : Nat) : ℤ) = decimal (value (dateText yy m (d - 1))) := by
      rw [zfillInt, if_neg (by omega), Int.natAbs_natCast]
      simp
    rw [hi, hz0]
    obtain ⟨g1, g2, g3⟩ := value_decimal (value (dateText yy m (d - 1)))
    refine Verif.UOut.four_unique ?_ g2 f2 g1
    have l1 := (Verif.Pds.decimal_length (k := 8) (by norm_num) (n := value (dateText yy m (d - 1)))).2 (by rw [f3]; omega)
    have l2 : ¬ (decimal (value (dateText yy m (d - 1)))).length ≤ 7 := by
      intro hc
      have := (Verif.Pds.decimal_length (k := 7) (by norm_num) (n := value (dateText yy m (d - 1)))).1 hc
      rw [f3] at this
      omega
    omega
  have hne : dateText yy m d ≠ [] ∧ (dateText yy m d).all isDigit = true := ⟨fun hc => by rw [hc] at e1; simp at e1, e2⟩
  have hp : previous ["RSS".toList, y, doy, st, dir, "TAU".toList, res, dateText yy m d, version 1] =
      some ["RSS".toList, y, doy, st, dir, "TAU".toList, res, dateText yy m (d - 1), version 1] := by
    rw [previous]
    simp only [List.reverse_cons, List.reverse_nil, List.nil_append, List.cons_append, hv.1, if_true, if_pos hne, hz]
    rw [List.take_of_length_le]
    rw [f1, ← hv.2]
    exact le_width (by simp)
  simp only [geoFile, split_tau h1 h2 h3 h4 h5 h6 h7, geo_nine, h, Bool.false_eq_true, if_false, hp, Option.map_some]

example : geoFile (fun _ => false) "RSS_2005_123_X43_E_TAU_01000M_20260115_0001.TAB".toList = some "RSS_2005_123_X43_E_GEO_20260114_0001.TAB".toList := by
  decide +kernel

/-- **C173, in general, is false.** On the first day of a month it is a file of day 0, which cannot exist. -/
theorem C173_first_false : geoFile (fun f => decide (f = "RSS_2005_123_X43_E_GEO_20251231_0001.TAB".toList))
    "RSS_2005_123_X43_E_TAU_01000M_20260101_0001.TAB".toList = some "RSS_2005_123_X43_E_GEO_20260100_0001.TAB".toList := by decide +kernel

/-- **C173, in general, is false.** For version 10 it is a file with the version `000-1.TA`, though that of version 9 exists. -/
theorem C173_ten_false : geoFile (fun f => decide (f = "RSS_2005_123_X43_E_GEO_20260115_0009.TAB".toList))
    "RSS_2005_123_X43_E_TAU_01000M_20260115_0010.TAB".toList = some "RSS_2005_123_X43_E_GEO_20260115_000-1.TA".toList := by decide +kernel

/-- **C173, in general, is false.** For version 12 it is version 1 of the same day, though that of version 11 exists. -/
theorem C173_twelve_false : geoFile (fun f => decide (f = "RSS_2005_123_X43_E_GEO_20260115_0011.TAB".toList))
    "RSS_2005_123_X43_E_TAU_01000M_20260115_0012.TAB".toList = some "RSS_2005_123_X43_E_GEO_20260115_0001.TAB".toList := by decide +kernel

end Verif.Jobs
