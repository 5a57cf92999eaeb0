import Verif.Model.History

/-!
# C51, C52: dates of revolutions, printing of histories
-/
namespace Verif
open Hist

/-! ### Specification -/

/-- The tabulated observations: year, day of the year, revolution. -/
def Spec.observations : List (Nat × Nat × String) := yearVals.zip (doyVals.zip revVals)

/-- tables/RSSActivities_all_rings_only.txt lines 2-85: request, year, day of the year of every ring occultation. -/
def Spec.activities : List (String × Nat × Nat) := [
  ("RSS_007RI_OCC003_PRIME", 2005, 123), ("RSS_007RI_OCC004_PRIME", 2005, 123), ("RSS_008RI_OCC003_PRIME", 2005, 141),
  ("RSS_008RI_OCC004_PRIME", 2005, 141), ("RSS_009RI_OCC004_PRIME", 2005, 159), ("RSS_010RI_OCC003_PRIME", 2005, 177),
  ("RSS_010RI_OCC004_PRIME", 2005, 177), ("RSS_011RI_OCC004_PRIME", 2005, 196), ("RSS_012RI_OCC003_PRIME", 2005, 214),
  ("RSS_012RI_OCC004_PRIME", 2005, 214), ("RSS_013RI_OCC004_PRIME", 2005, 232), ("RSS_014RI_OCC002_PRIME", 2005, 248),
  ("RSS_028RI_OCC001_PRIME", 2006, 258), ("RSS_028RI_OCC002_PRIME", 2006, 259), ("RSS_044RI_OCC002_PRIME", 2007, 130),
  ("RSS_046RI_OCC002_PRIME", 2007, 162), ("RSS_053RI_OCC002_PRIME", 2007, 337), ("RSS_054RI_OCC002_PRIME", 2007, 353),
  ("RSS_056RI_OCC002_PRIME", 2008, 15), ("RSS_057RI_OCC002_PRIME", 2008, 27), ("RSS_058RI_OCC002_PRIME", 2008, 39),
  ("RSS_060RI_OCC002_PRIME", 2008, 62), ("RSS_063RI_OCC002_PRIME", 2008, 92), ("RSS_064RI_OCC002_PRIME", 2008, 102),
  ("RSS_067RI_OCC002_PRIME", 2008, 130), ("RSS_079RI_OCC002_PRIME", 2008, 217), ("RSS_081RI_OCC002_PRIME", 2008, 232),
  ("RSS_082RI_OCC002_PRIME", 2008, 239), ("RSS_084RI_OCC002_PRIME", 2008, 254), ("RSS_089RI_OCC001_PRIME", 2008, 291),
  ("RSS_123RI_OCC002_PRIME", 2009, 359), ("RSS_123RI_OCC003_PRIME", 2009, 360), ("RSS_125RI_OCC002_PRIME", 2010, 26),
  ("RSS_125RI_OCC003_PRIME", 2010, 27), ("RSS_133RI_OCC002_PRIME", 2010, 169), ("RSS_133RI_OCC003_PRIME", 2010, 170),
  ("RSS_137RI_OCC001_PRIME", 2010, 245), ("RSS_137RI_OCC002_PRIME", 2010, 245), ("RSS_167RI_OCC001_PIE", 2012, 156),
  ("RSS_168RI_OCC001_PRIME", 2012, 180), ("RSS_169RI_OCC001_PIE", 2012, 204), ("RSS_170RI_OCC001_PIE", 2012, 225),
  ("RSS_174RI_OCC001_PIE", 2012, 315), ("RSS_179RI_OCC001_PRIME", 2013, 18), ("RSS_180RI_OCC001_PRIME", 2013, 31),
  ("RSS_189RI_OCC001_PRIME", 2013, 130), ("RSS_190RI_OCC001_PIE", 2013, 140), ("RSS_191RI_OCC001_PIE", 2013, 151),
  ("RSS_193RI_OCC001_PIE", 2013, 175), ("RSS_194RI_OCC001_PRIME", 2013, 187), ("RSS_196RI_OCC001_PIE", 2013, 220),
  ("RSS_197RI_OCC001_RSS", 2013, 244), ("RSS_236RI_OCC001_PIE", 2016, 158), ("RSS_237RI_OCC001_PIE", 2016, 182),
  ("RSS_237RI_OCC002_PIE", 2016, 182), ("RSS_238RI_OCC001_PIE", 2016, 206), ("RSS_247RI_OCC001_PRIME", 2016, 307),
  ("RSS_248RI_OCC001_PRIME", 2016, 317), ("RSS_250RI_OCC001_PIE", 2016, 333), ("RSS_251RI_OCC001_PIE", 2016, 340),
  ("RSS_253RI_OCC002_PRIME", 2016, 354), ("RSS_255RI_OCC001_PIE", 2017, 3), ("RSS_256RI_OCC001_PIE", 2017, 10),
  ("RSS_257RI_OCC001_PRIME", 2017, 17), ("RSS_266RI_OCC001_PRIME", 2017, 81), ("RSS_268RI_OCC001_PIE", 2017, 96),
  ("RSS_270RI_OCC001_PRIME", 2017, 110), ("RSS_273RI_PERIOCC001_PRIME", 2017, 129),
  ("RSS_273RI_INGOCC001_PRIME", 2017, 129), ("RSS_273RI_EGROCC001_PRIME", 2017, 129),
  ("RSS_PERIOCC001_PRIME", 2017, 135), ("RSS_274_RI_INGOCC001_PRIME", 2017, 135),
  ("RSS_274_RI_EGROCC001_PRIME", 2017, 136), ("RSS_275RI_PERIOCC001_PRIME", 2017, 142),
  ("RSS_275RI_INGOCC001_PRIME", 2017, 142), ("RSS_275RI_EGROCC001_PRIME", 2017, 142),
  ("RSS_276RI_OCC001_PRIME", 2017, 148), ("RSS_278RI_PERIOCC001_PRIME", 2017, 161),
  ("RSS_278RI_CRDOCC001_PRIME", 2017, 161), ("RSS_280RI_PERIOCC001_PRIME", 2017, 174),
  ("RSS_280RI_CRDOCC001_PRIME", 2017, 174), ("RSS_282RI_OCC001_PRIME", 2017, 187),
  ("RSS_284RI_PERIOCC001_PRIME", 2017, 200), ("RSS_284RI_CRDOCC001_PRIME", 2017, 200)]

/-- The five characters after `RSS_`, without underscores. -/
def Spec.revOfRequest (s : String) : String := String.ofList (((s.toList.drop 4).filter (· ≠ '_')).take 5)

/-- The array of a history: the pairs, a terminator, and unspecified elements up to 17. -/
def Spec.Terminated (ps : List (String × String)) (l : List Cell) : Prop :=
  ∃ rest, l = ps.flatMap (fun p => [Cell.str p.1, Cell.str p.2]) ++ Cell.null :: rest ∧ l.length = 17

/-- What a list of pairs looks like in print. -/
def Spec.printed (ps : List (String × String)) : List Line :=
  if ps = [] then [Line.none] else ps.map fun p => Line.pair p.1 p.2

open Spec

/-! ### C51 -/

theorem revLoop_eq (year doy : Nat) : ∀ cnt n, n + cnt = 84 →
    revLoop year doy n cnt = .ok (((observations.drop n).find? fun o => decide (o.1 = year ∧ o.2.1 = doy)).map (·.2.2)) := by
  have ly : yearVals.length = 84 := by decide
  have ld : doyVals.length = 84 := by decide
  have lr : revVals.length = 84 := by decide
  have lo : observations.length = 84 := by decide
  intro cnt
  induction cnt with
  | zero =>
    intro n hn
    rw [List.drop_of_length_le (by omega)]
    rfl
  | succ cnt ih =>
    intro n hn
    have hlt : n < observations.length := by omega
    rw [List.drop_eq_getElem_cons hlt]
    have e : observations[n] = (yearVals[n]'(by omega), doyVals[n]'(by omega), revVals[n]'(by omega)) := by
      simp [observations]
    rw [e]
    unfold revLoop
    rw [rd_lt (show n < yearVals.length by omega), Res.ok_bind]
    by_cases hy : year = yearVals[n]'(by omega)
    · rw [if_neg (by simpa using hy), rd_lt (show n < doyVals.length by omega), Res.ok_bind]
      by_cases hd : doy = doyVals[n]'(by omega)
      · rw [if_neg (by simpa using hd), rd_lt (show n < revVals.length by omega), Res.ok_bind]
        simp [← hy, ← hd]
      · rw [if_pos hd, ih (n + 1) (by omega)]
        simp [Ne.symm hd]
    · rw [if_pos hy, ih (n + 1) (by omega)]
      simp [Ne.symm hy]

/-- **C51** For every year and day: no undefined behaviour, and the result is the revolution of the first tabulated
observation with this date (NULL if there is none); the three range tests never hide an observation. -/
theorem C51_lookup (year doy : Nat) :
    dateToRev year doy =
      .ok ((observations.find? fun o => decide (o.1 = year ∧ o.2.1 = doy)).map (·.2.2)) := by
  have hr : ∀ o ∈ observations, 2005 ≤ o.1 ∧ o.1 ≤ 2017 ∧ o.2.1 ≤ 366 := by decide +kernel
  have none_of : (year < 2005 ∨ 2017 < year ∨ 366 < doy) →
      (observations.find? fun o => decide (o.1 = year ∧ o.2.1 = doy)) = none := by
    intro h
    rw [List.find?_eq_none]
    intro o ho hc
    have := hr o ho
    simp only [decide_eq_true_eq] at hc
    omega
  unfold dateToRev
  split
  · rw [none_of (by omega)]; rfl
  · split
    · rw [none_of (by omega)]; rfl
    · split
      · rw [none_of (by omega)]; rfl
      · rw [revLoop_eq _ _ _ _ (by decide)]
        simp

example : dateToRev 2017 129 = .ok (some "273RI") ∧ dateToRev 2017 130 = .ok none := by decide +kernel

/-- **C51** (partial) For every date except day 135 of 2017 the revolution is determined by the date: the result is the
revolution of every observation tabulated with it.
Missing: that date, see `C51_unique_false`. -/
theorem C51_unique_partial (year doy : Nat) (h : ¬ (year = 2017 ∧ doy = 135)) (rev : String)
    (hm : (year, doy, rev) ∈ observations) : dateToRev year doy = .ok (some rev) := by
  have hu : ∀ o ∈ observations, ¬ (o.1 = 2017 ∧ o.2.1 = 135) → dateToRev o.1 o.2.1 = .ok (some o.2.2) := by
    decide +kernel
  exact hu _ hm h

example : dateToRev 2010 245 = .ok (some "137RI") :=
  C51_unique_partial 2010 245 (by decide) _ (by decide +kernel)

/-- **C51** is false in its last clause: day 135 of 2017 is tabulated twice, for PERIO and for 274RI, and the function
never returns the latter. -/
theorem C51_unique_false : (2017, 135, "PERIO") ∈ observations ∧ (2017, 135, "274RI") ∈ observations ∧
    dateToRev 2017 135 = .ok (some "PERIO") := by decide +kernel

/-- **C51** The rows compiled into the library are those of the table of activities delivered with it, in the same
order. -/
theorem C51_table : observations = activities.map fun a => (a.2.1, a.2.2, revOfRequest a.1) := by decide +kernel

/-- **C51** For every activity of the table except those on day 135 of 2017 the function returns the revolution in the name
of the request. -/
theorem C51_activity_partial (a : String × Nat × Nat) (ha : a ∈ activities) (h : ¬ (a.2.1 = 2017 ∧ a.2.2 = 135)) :
    dateToRev a.2.1 a.2.2 = .ok (some (revOfRequest a.1)) :=
  C51_unique_partial _ _ h _ (by rw [C51_table]; exact List.mem_map.2 ⟨a, ha, rfl⟩)

example : dateToRev 2017 200 = .ok (some "284RI") :=
  C51_activity_partial ("RSS_284RI_CRDOCC001_PRIME", 2017, 200) (by decide +kernel) (by decide)

/-! ### C52 -/

theorem printPairs_ok (rest : List Cell) : ∀ (ps : List (String × String)) (pre : List Cell) (fuel : Nat),
    ps.length < fuel → pre.length + 2 * ps.length + 1 ≤ 17 →
    printPairs (pre ++ (ps.flatMap (fun p => [Cell.str p.1, Cell.str p.2]) ++ Cell.null :: rest)) fuel pre.length =
      .ok (ps.map fun p => Line.pair p.1 p.2) := by
  intro ps
  induction ps with
  | nil =>
    intro pre fuel hf hl
    obtain ⟨fuel, rfl⟩ : ∃ k, fuel = k + 1 := ⟨fuel - 1, by omega⟩
    unfold printPairs
    rw [(rd_eq_ok (a := Cell.null)).2 (by simp), Res.ok_bind]
    rfl
  | cons p ps ih =>
    intro pre fuel hf hl
    obtain ⟨fuel, rfl⟩ : ∃ k, fuel = k + 1 := ⟨fuel - 1, by omega⟩
    simp only [List.length_cons] at hf hl
    unfold printPairs
    rw [(rd_eq_ok (a := Cell.str p.1)).2 (by simp), Res.ok_bind]
    simp only [isNull, Res.ok_bind, Bool.false_eq_true, if_false]
    rw [(rd_eq_ok (a := Cell.str p.2)).2 (by simp [List.getElem?_append_right]), Res.ok_bind]
    simp only [strArg, Res.ok_bind]
    rw [if_neg (by omega)]
    have := ih (pre ++ [Cell.str p.1, Cell.str p.2]) fuel (by omega) (by simp; omega)
    simp only [List.append_assoc, List.length_append, List.length_cons, List.length_nil] at this
    simp only [List.flatMap_cons, List.append_assoc]
    rw [this, Res.ok_bind]
    rfl

theorem printList_ok {ps : List (String × String)} {l : List Cell} (h : Terminated ps l) :
    printList l = .ok (printed ps) := by
  obtain ⟨rest, rfl, hl⟩ := h
  have h2 : (ps.flatMap (fun p => [Cell.str p.1, Cell.str p.2])).length = 2 * ps.length := by
    clear hl
    induction ps with
    | nil => rfl
    | cons p ps ih => simp only [List.flatMap_cons, List.length_append, List.length_cons, List.length_nil, ih]; omega
  have hl' : 2 * ps.length + 1 ≤ 17 := by
    rw [List.length_append, List.length_cons, h2] at hl; omega
  unfold printList printed
  cases ps with
  | nil => rfl
  | cons p ps =>
    rw [(rd_eq_ok (a := Cell.str p.1)).2 (by simp), Res.ok_bind]
    simp only [isNull, Res.ok_bind, Bool.false_eq_true, if_false]
    have := printPairs_ok rest (p :: ps) [] 10 (by simp only [List.length_cons] at hl' ⊢; omega) (by simp only [List.length_nil]; omega)
    simpa using this

theorem strArgs_str (base : List String) : strArgs (base.map Cell.str) = .ok base := by
  induction base with
  | nil => rfl
  | cons b base ih =>
    simp only [List.map_cons, strArgs, strArg, Res.ok_bind]
    rw [ih, Res.ok_bind]

/-- **C52** (partial) If the seven strings are there and both arrays hold pairs of strings followed by a terminator, printing
terminates without undefined behaviour and prints exactly the pairs, whatever follows the terminators.
Missing: arrays without terminator (`C52_full_false`) and with an odd number of strings (`C52_odd_false`). -/
theorem C52_print_partial (base : List String) (h : History) (hb : h.base = base.map .str)
    (vs ks : List (String × String)) (hv : Terminated vs h.vars) (hk : Terminated ks h.kwds) :
    print (some h) = .ok (.base base :: printed vs ++ .keywords :: printed ks) := by
  have e := strArgs_str base
  simp only [print]
  rw [hb, e, Res.ok_bind, printList_ok hv, Res.ok_bind, printList_ok hk, Res.ok_bind]

/-- Eight pairs fill the array. -/
example : printList ((List.replicate 16 (Cell.str "x")) ++ [Cell.null]) =
    .ok (List.replicate 8 (Line.pair "x" "x")) := by
  rw [printList_ok (ps := List.replicate 8 ("x", "x")) ⟨[], by decide +kernel, rfl⟩]
  decide +kernel

theorem printPairs_full (l : List Cell) (hl : l.length = 17) (hs : ∀ c ∈ l, ∃ s, c = Cell.str s) :
    ∀ k, k ≤ 8 → printPairs l (k + 1 + 1) (16 - 2 * k) = .ub .oobRead := by
  have hget : ∀ n, n < 17 → ∃ s, rd l n = .ok (Cell.str s) := fun n hn => by
    obtain ⟨s, hs⟩ := hs (l[n]'(by omega)) (List.getElem_mem _)
    exact ⟨s, by rw [rd_lt (show n < l.length by omega), hs]⟩
  intro k
  induction k with
  | zero =>
    intro _
    obtain ⟨s, e⟩ := hget 16 (by omega)
    unfold printPairs
    rw [e, Res.ok_bind]
    simp only [isNull, Res.ok_bind, Bool.false_eq_true, if_false]
    rw [rd_ge (by omega)]
    rfl
  | succ k ih =>
    intro hk
    obtain ⟨s, e⟩ := hget (16 - 2 * (k + 1)) (by omega)
    obtain ⟨s', e'⟩ := hget (16 - 2 * (k + 1) + 1) (by omega)
    unfold printPairs
    rw [e, Res.ok_bind]
    simp only [isNull, Res.ok_bind, Bool.false_eq_true, if_false]
    rw [e']
    simp only [strArg, Res.ok_bind]
    rw [if_neg (by omega), show 16 - 2 * (k + 1) + 2 = 16 - 2 * k by omega, ih (by omega)]
    rfl

/-- **C52** is false for full arrays: for every history whose first array has seventeen strings, element 17 is read. -/
theorem C52_full_false (base : List String) (h : History) (hb : h.base = base.map .str)
    (hl : h.vars.length = 17) (hs : ∀ c ∈ h.vars, ∃ s, c = Cell.str s) : print (some h) = .ub .oobRead := by
  have e := strArgs_str base
  obtain ⟨s, hs0⟩ := hs (h.vars[0]'(by omega)) (List.getElem_mem _)
  simp only [print]
  rw [hb, e, Res.ok_bind]
  unfold printList
  rw [rd_lt (show 0 < h.vars.length by omega), hs0, Res.ok_bind]
  simp only [isNull, Res.ok_bind, Bool.false_eq_true, if_false]
  rw [printPairs_full h.vars hl hs 8 (by omega)]
  rfl

example : print (some { base := [], vars := List.replicate 17 (.str "x"), kwds := [] }) = .ub .oobRead :=
  C52_full_false [] _ rfl rfl fun _ hc => ⟨"x", List.eq_of_mem_replicate hc⟩

/-- **C52** An odd number of strings before the terminator: NULL is printed as a string. -/
theorem C52_odd_false (s : String) (rest : List Cell) (kwds : List Cell) :
    print (some { base := [], vars := .str s :: .null :: rest, kwds := kwds }) = .ub .stringNull := by
  rfl

/-- **C52** The history written for a geometry file is printed: the file name and the flag. -/
theorem C52_written (base : List String) (filename : String) (dep : Bool) :
    (writeHistory (base.map .str) (.str filename) dep >>= fun h => print (some h)) =
      .ok [.base base, .pair "filename" filename, .keywords,
        .pair "use_deprecated" (if dep then "True" else "False")] := by
  have : writeHistory (base.map .str) (.str filename) dep = .ok
      { base := base.map .str
        vars := .str "filename" :: .str filename :: .null :: List.replicate 14 .junk
        kwds := .str "use_deprecated" :: .str (if dep then "True" else "False") :: .null :: List.replicate 14 .junk } := rfl
  rw [this, Res.ok_bind, C52_print_partial base _ rfl [("filename", filename)]
    [("use_deprecated", if dep then "True" else "False")] ⟨_, rfl, rfl⟩ ⟨_, rfl, rfl⟩]
  rfl

end Verif
