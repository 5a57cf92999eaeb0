import Verif.Model.TexName
import Verif.Props.C145

/-!
# What the summary document takes from the name of its file (C230, C231)
-/
namespace Verif.Tex
open Verif.Rsr Verif.Pds Verif.Rev

/-- The name of a profile: year, day, band, station and direction. -/
def Spec.profile (year doy : List Char) (band : Char) (dsn : List Char) (dir : Char) : List Char :=
  ['R', 'S', 'S', '_'] ++ year ++ ['_'] ++ doy ++ ['_'] ++ band :: dsn ++ ['_', dir]

/-- A text without underscore and slash. -/
def Spec.Plain (s : List Char) : Prop := '_' ∉ s ∧ '/' ∉ s

theorem last_append (a b : List (List Char)) (hb : b ≠ []) (d : List Char) : (a ++ b).getLastD d = b.getLastD d := by
  rw [List.getLastD_eq_getLast?, List.getLastD_eq_getLast?, List.getLast?_append_of_ne_nil _ hb]

theorem base_name (outdir s : List Char) (ho : outdir = [] ∨ ∃ d, outdir = d ++ ['/']) (hs : '/' ∉ s) : (splitOn '/' (outdir ++ s)).getLastD [] = s := by
  rcases ho with rfl | ⟨d, rfl⟩
  · rw [List.nil_append, splitOn_none hs]; rfl
  · rw [show d ++ ['/'] ++ s = d ++ '/' :: s by simp, Verif.Pick.splitOn_append, splitOn_none hs, last_append _ _ (by simp)]
    rfl

theorem profile_eq (year doy dsn : List Char) (band dir : Char) : Spec.profile year doy band dsn dir =
    ['R', 'S', 'S'] ++ '_' :: (year ++ '_' :: (doy ++ '_' :: ((band :: dsn) ++ ['_', dir]))) := by
  simp [Spec.profile]

theorem pd1_plain (dir : Char) (chord per : Bool) (h : Spec.Plain [dir]) : Spec.Plain (pd1 dir chord per) := by
  obtain ⟨h1, h2⟩ := h
  simp only [List.mem_singleton] at h1 h2
  constructor <;> cases chord <;> cases per <;> simp [pd1, h1, h2]

/-- From the file of the figures the document has the number of the revolution, the letters of the direction, the day, the year, the station and the band with the station. -/
theorem C230_macros (outdir rev year doy dsn rest : List Char) (band dir : Char) (chord per : Bool) (ho : outdir = [] ∨ ∃ d, outdir = d ++ ['/'])
    (hr : rev.length = 3) (hd : dsn.length = 2) (h1 : Spec.Plain rev) (h2 : Spec.Plain year) (h3 : Spec.Plain doy) (h4 : Spec.Plain (band :: dsn))
    (h5 : Spec.Plain [dir]) (h6 : '/' ∉ rest) :
    macros (outfig outdir rev (pd1 dir chord per) (Spec.profile year doy band dsn dir ++ '_' :: rest)) =
      .ok ⟨rev, pd1 dir chord per, doy, dsn, year, band :: dsn⟩ := by
  obtain ⟨p1, p2⟩ := pd1_plain dir chord per h5
  set p := pd1 dir chord per
  have e : outfig outdir rev p (Spec.profile year doy band dsn dir ++ '_' :: rest) =
      outdir ++ (("Rev".toList ++ rev ++ p) ++ '_' :: (['R', 'S', 'S'] ++ '_' :: (year ++ '_' :: (doy ++ '_' :: ((band :: dsn) ++ '_' :: ([dir] ++ '_' :: (rest ++ ".pdf".toList))))))) := by
    rw [profile_eq, outfig]
    generalize "Rev".toList = q1
    generalize ".pdf".toList = q3
    simp
  have hv : '_' ∉ "Rev".toList ++ rev ++ p := by
    rw [List.mem_append, List.mem_append]
    rintro ((h | h) | h)
    · revert h; decide
    · exact h1.1 h
    · exact p1 h
  have hs : '/' ∉ (("Rev".toList ++ rev ++ p) ++ '_' :: (['R', 'S', 'S'] ++ '_' :: (year ++ '_' :: (doy ++ '_' :: ((band :: dsn) ++ '_' :: ([dir] ++ '_' :: (rest ++ ".pdf".toList))))))) := by
    have hb := h4.2
    have hdir := h5.2
    simp only [List.mem_cons, not_or, List.not_mem_nil] at hb hdir
    simp [h1.2, h2.2, h3.2, p2, h6, hb, hdir]
  unfold macros
  rw [e, base_name _ _ ho hs, splitOn_first hv, splitOn_first (by decide), splitOn_first h2.1, splitOn_first h3.1, splitOn_first h4.1]
  simp only [part, List.getElem?_cons_zero, List.getElem?_cons_succ, bind, Except.bind, pure, Except.pure]
  obtain ⟨a, b, c, rfl⟩ : ∃ a b c, rev = [a, b, c] := by
    match rev, hr with
    | [a, b, c], _ => exact ⟨a, b, c, rfl⟩
  obtain ⟨x, y, rfl⟩ : ∃ x y, dsn = [x, y] := by
    match dsn, hd with
    | [x, y], _ => exact ⟨x, y, rfl⟩
  rfl

/-- Revolution 7, egress, and a chord of revolution 54. -/
example : macros "../output/Rev007/E/Rev007E_RSS_2005_123_X43_E_SUMMARY_20261117_0001.pdf".toList =
    .ok ⟨"007".toList, "E".toList, "123".toList, "43".toList, "2005".toList, "X43".toList⟩ := by decide +kernel

/-- The document goes to the directory of the file of the figures. -/
theorem C230_directory (pdffil : List Char) (h : '/' ∈ pdffil) : ∃ base, '/' ∉ base ∧ pdffil = texOut pdffil ++ base := by
  obtain ⟨a, b, hb, hs, e⟩ : ∃ a b : List Char, '/' ∉ b ∧ splitOn '/' pdffil = splitOn '/' a ++ [b] ∧ pdffil = a ++ '/' :: b := by
    have key : ∀ s : List Char, '/' ∈ s → ∃ a b : List Char, '/' ∉ b ∧ s = a ++ '/' :: b := by
      intro s
      induction s with
      | nil => simp
      | cons x t ih =>
        intro hm
        by_cases ht : '/' ∈ t
        · obtain ⟨a, b, hb, rfl⟩ := ih ht
          exact ⟨x :: a, b, hb, rfl⟩
        · rcases List.mem_cons.mp hm with rfl | hm
          · exact ⟨[], t, ht, rfl⟩
          · exact absurd hm ht
    obtain ⟨a, b, hb, rfl⟩ := key pdffil h
    exact ⟨a, b, hb, by rw [Verif.Pick.splitOn_append, splitOn_none hb], rfl⟩
  have join : ∀ a : List Char, (splitOn '/' a).headD [] ++ ['/'] ++ (((splitOn '/' a).tail).map (· ++ ['/'])).flatten = a ++ ['/'] := by
    intro a
    induction a with
    | nil => simp [splitOn]
    | cons x t ih =>
      by_cases hx : x = '/'
      · subst hx
        rw [splitOn, if_pos rfl]
        cases hh : splitOn '/' t with
        | nil => exact absurd hh (Verif.Pick.splitOn_ne _ _)
        | cons y ys =>
          rw [hh] at ih
          simp only [List.headD_cons, List.tail_cons, List.map_cons, List.flatten_cons, List.nil_append, List.cons_append] at ih ⊢
          rw [ih]
      · rw [splitOn, if_neg hx]
        cases hh : splitOn '/' t with
        | nil => exact absurd hh (Verif.Pick.splitOn_ne _ _)
        | cons y ys =>
          rw [hh] at ih
          simp only [List.headD_cons, List.tail_cons, List.cons_append] at ih ⊢
          rw [ih]
  refine ⟨b, hb, ?_⟩
  unfold texOut
  rw [hs]
  cases hh : splitOn '/' a with
  | nil => exact absurd hh (Verif.Pick.splitOn_ne _ _)
  | cons y ys =>
    have := join a
    rw [hh] at this
    simp only [List.headD_cons, List.tail_cons] at this
    simp only [List.cons_append, List.length_cons, List.length_append, List.headD_cons, List.tail_cons, List.dropLast_concat]
    rw [if_pos (by simp), this, e]
    simp

example : texOut "../output/Rev007/E/x.pdf".toList = "../output/Rev007/E/".toList := by decide +kernel

/-- The first line of the title is the name of the profile. -/
def Spec.Titled (pdf year doy : List Char) (band : Char) (dsn : List Char) (dir : Char) : Prop :=
  ∃ m, macros pdf = .ok m ∧ titleLine m = Spec.profile year doy band dsn dir

/-- It is for occultations that are not chords and have no part behind the planet. -/
theorem C231_title_partial (outdir rev year doy dsn rest : List Char) (band dir : Char) (ho : outdir = [] ∨ ∃ d, outdir = d ++ ['/'])
    (hr : rev.length = 3) (hd : dsn.length = 2) (h1 : Spec.Plain rev) (h2 : Spec.Plain year) (h3 : Spec.Plain doy) (h4 : Spec.Plain (band :: dsn))
    (h5 : Spec.Plain [dir]) (h6 : '/' ∉ rest) :
    Spec.Titled (outfig outdir rev (pd1 dir false false) (Spec.profile year doy band dsn dir ++ '_' :: rest)) year doy band dsn dir :=
  ⟨_, C230_macros outdir rev year doy dsn rest band dir false false ho hr hd h1 h2 h3 h4 h5 h6, by
    simp [pd1, titleLine, Spec.profile]⟩

example : Spec.Titled (outfig "a/".toList "007".toList (pd1 'E' false false) (Spec.profile "2005".toList "123".toList 'X' "43".toList 'E' ++ '_' :: "S".toList))
    "2005".toList "123".toList 'X' "43".toList 'E' :=
  C231_title_partial _ _ _ _ _ _ _ _ (Or.inr ⟨['a'], rfl⟩) rfl rfl (by constructor <;> decide) (by constructor <;> decide) (by constructor <;> decide)
    (by constructor <;> decide) (by constructor <;> decide) (by decide)

/-- For chords the letter `C` is in the name of the profile. -/
theorem C231_title_false : ∃ (outdir rev year doy dsn rest : List Char) (band dir : Char), rev.length = 3 ∧ dsn.length = 2 ∧
    ¬ Spec.Titled (outfig outdir rev (pd1 dir true false) (Spec.profile year doy band dsn dir ++ '_' :: rest)) year doy band dsn dir := by
  refine ⟨[], "054".toList, "2007".toList, "353".toList, "55".toList, "SUMMARY".toList, 'K', 'I', rfl, rfl, ?_⟩
  rintro ⟨m, h1, h2⟩
  have : macros (outfig [] "054".toList (pd1 'I' true false) (Spec.profile "2007".toList "353".toList 'K' "55".toList 'I' ++ '_' :: "SUMMARY".toList)) =
      .ok ⟨"054".toList, "CI".toList, "353".toList, "55".toList, "2007".toList, "K55".toList⟩ := by decide +kernel
  rw [this] at h1
  cases h1
  revert h2
  decide +kernel

end Verif.Tex
