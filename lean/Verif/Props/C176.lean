import Verif.Model.BatchRun
import Verif.Props.C125
import Mathlib.Data.List.Nodup
import Mathlib.Data.List.Dedup

/-!
# C176 to C181: tasks that run side by side
-/
namespace Verif.Runs
open Verif Verif.Rsr Verif.Batch

/-! ### C176: reports of failures -/

theorem mem_writeFile {files : List (List Char × List Char)} {name text : List Char} {x : List Char × List Char} :
    x ∈ writeFile files name text ↔ x = (name, text) ∨ (x ∈ files ∧ x.1 ≠ name) := by
  simp only [writeFile, List.mem_append, List.mem_filter, List.mem_singleton, decide_eq_true_eq]
  tauto

/-- A file is in the directory at the end exactly if it is the report of a failure after which no other report had its name. -/
theorem C176_last (program : List Char) (stamp : Nat → List Char) (rs : List (Nat × List Char)) (name text : List Char) :
    (name, text) ∈ reportFiles program stamp rs ↔
      ∃ a b s, rs = a ++ (s, text) :: b ∧ name = program ++ stamp s ++ ['.', 'e', 'r', 'r'] ∧
        ∀ r ∈ b, program ++ stamp r.1 ++ ['.', 'e', 'r', 'r'] ≠ name := by
  have herr : ".err".toList = ['.', 'e', 'r', 'r'] := by decide +kernel
  unfold reportFiles
  induction rs using List.reverseRecOn with
  | nil => simp
  | append_singleton l r ih =>
    rw [List.foldl_append, List.foldl_cons, List.foldl_nil, writeReport, mem_writeFile, reportName, herr, propext ih]
    constructor
    · rintro (h | ⟨⟨a, b, s, rfl, hn, hb⟩, hne⟩)
      · obtain ⟨rfl, rfl⟩ := Prod.mk.inj h
        exact ⟨l, [], r.1, rfl, rfl, by simp⟩
      · refine ⟨a, b ++ [r], s, by simp, hn, ?_⟩
        intro q hq
        rcases List.mem_append.mp hq with hq | hq
        · exact hb q hq
        · rw [List.mem_singleton] at hq
          rw [hq]
          exact fun e => hne e.symm
    · rintro ⟨a, b, s, e, hn, hb⟩
      rcases List.eq_nil_or_concat b with rfl | ⟨b', x, rfl⟩
      · left
        have := List.append_inj_right' (s₁ := l) (t₁ := [r]) (s₂ := a) (t₂ := [(s, text)]) e rfl
        rw [List.cons.injEq] at this
        rw [this.1, hn]
      · right
        rw [List.concat_eq_append] at e hb
        have e' : l ++ [r] = (a ++ (s, text) :: b') ++ [x] := by simpa using e
        have h1 := List.append_inj_left' e' rfl
        have h2 := List.append_inj_right' e' rfl
        rw [List.cons.injEq] at h2
        refine ⟨⟨a, b', s, h1, hn, fun q hq => hb q (List.mem_append_left _ hq)⟩, ?_⟩
        have := hb x (by simp)
        rw [← h2.1] at this
        exact fun e => this e.symm

/-- Failures in seconds with different stamps: every report is kept. -/
theorem C176_kept_partial (program : List Char) (stamp : Nat → List Char) (rs : List (Nat × List Char))
    (h : (rs.map fun r => stamp r.1).Nodup) :
    ∀ r ∈ rs, (program ++ stamp r.1 ++ ['.', 'e', 'r', 'r'], r.2) ∈ reportFiles program stamp rs := by
  intro r hr
  obtain ⟨a, b, rfl⟩ := List.append_of_mem hr
  rw [C176_last]
  refine ⟨a, b, r.1, rfl, rfl, ?_⟩
  intro q hq e
  rw [List.map_append, List.map_cons, List.nodup_append] at h
  have h1 := (List.nodup_cons.mp h.2.1).1
  apply h1
  rw [List.mem_map]
  refine ⟨q, hq, ?_⟩
  rw [List.append_assoc, List.append_assoc] at e
  have := List.append_cancel_left e
  exact List.append_cancel_right this

/-- Full property: every report is kept.  False: of two failures in the same second only the second is kept, whatever they say. -/
theorem C176_second_false (program : List Char) (stamp : Nat → List Char) (s : Nat) {t u : List Char} (h : t ≠ u) :
    (program ++ stamp s ++ ['.', 'e', 'r', 'r'], t) ∉ reportFiles program stamp [(s, t), (s, u)] ∧
    (reportFiles program stamp [(s, t), (s, u)]).length = 1 := by
  constructor
  · rw [C176_last]
    rintro ⟨a, b, s', e, -, hb⟩
    match a with
    | [] =>
      simp only [List.nil_append, List.cons.injEq, Prod.mk.injEq] at e
      exact hb (s, u) (by rw [← e.2]; simp) rfl
    | [_] =>
      simp only [List.cons_append, List.nil_append, List.cons.injEq, Prod.mk.injEq] at e
      exact h e.2.1.2.symm
    | _ :: _ :: a' =>
      have := congrArg List.length e
      simp at this
  · simp [reportFiles, writeReport, writeFile]

/-! ### C177: the log -/

/-- Whatever the order in which the tasks come to write, every entry of every task is in the log once, and nothing else. -/
theorem C177_whole {α : Type} {ls : List (List α)} {log : List α} (h : Appends ls log) : log.Perm ls.flatten := by
  induction h with
  | done h => rw [List.flatten_eq_nil_iff.mpr h]
  | @next before after l a log _ ih =>
    refine (ih.cons a).trans ?_
    simp only [List.flatten_append, List.flatten_cons, List.cons_append]
    exact List.perm_middle.symm

/-- The entries of each task are in the log in the order in which the task wrote them: for entries that tell their task, the log
restricted to a task is what the task wrote. -/
theorem C177_order {α β : Type} [DecidableEq β] {tag : α → β} {ls : List (List α)} {log : List α} (h : Appends ls log)
    {name : Nat → β} (hn : ∀ i j, i < ls.length → j < ls.length → name i = name j → i = j)
    (ht : ∀ (i : Nat) (l : List α), ls[i]? = some l → ∀ a ∈ l, tag a = name i) (i : Nat) (l : List α) (hi : ls[i]? = some l) :
    log.filter (fun a => tag a = name i) = l := by
  induction h generalizing i l with
  | done h => rw [h l (List.mem_of_getElem? hi)]; rfl
  | @next before after k a log h ih =>
    have hlen : (before ++ (a :: k) :: after).length = (before ++ k :: after).length := by simp
    have hmid : (before ++ (a :: k) :: after)[before.length]? = some (a :: k) := by simp
    have hother : ∀ j, j ≠ before.length → (before ++ (a :: k) :: after)[j]? = (before ++ k :: after)[j]? := by
      intro j hj
      rcases lt_or_gt_of_ne hj with hj | hj
      · rw [List.getElem?_append_left hj, List.getElem?_append_left hj]
      · rw [List.getElem?_append_right hj.le, List.getElem?_append_right hj.le]
        obtain ⟨m, hm⟩ : ∃ m, j - before.length = m + 1 := ⟨j - before.length - 1, by omega⟩
        rw [hm, List.getElem?_cons_succ, List.getElem?_cons_succ]
    have ih' := ih (fun i j hi hj => hn i j (hlen ▸ hi) (hlen ▸ hj)) (by
      intro j m hj b hb
      by_cases hjb : j = before.length
      · subst hjb
        have : m = k := by simpa using hj.symm
        subst this
        exact ht _ _ hmid b (List.mem_cons_of_mem _ hb)
      · exact ht j m ((hother j hjb).trans hj) b hb)
    have hta := ht _ _ hmid a List.mem_cons_self
    by_cases hib : i = before.length
    · subst hib
      have : l = a :: k := by simpa using hi.symm
      subst this
      rw [List.filter_cons, if_pos (by simpa using hta), ih' before.length k (by simp)]
    · have hia : tag a ≠ name i := by
        rw [hta]
        intro e
        have h1 : i < (before ++ (a :: k) :: after).length := by
          have := List.getElem?_eq_some_iff.mp hi
          exact this.1
        exact hib (hn _ _ (by simp) h1 e).symm
      rw [List.filter_cons, if_neg (by simpa using hia)]
      exact ih' i l ((hother i hib).symm.trans hi)

/-- The log does not keep the entries of a task together: of two tasks with two entries each they may alternate. -/
theorem C177_mixed {α : Type} (a b c d : α) : Appends [[a, b], [c, d]] [a, c, b, d] := by
  refine .next (before := []) (l := [b]) (after := [[c, d]]) ?_
  refine .next (before := [[b]]) (l := [d]) (after := []) ?_
  refine .next (before := []) (l := []) (after := [[d]]) ?_
  refine .next (before := [[]]) (l := []) (after := []) ?_
  exact .done (by simp)

/-! ### C178: the spacings -/

/-- When the profiles of a recording have one spacing, `f d` for the desired `d`, profiles are made for the desired spacings up to the first
that is not reached, which is included, and for no other; there is no exception. -/
theorem C178_until_partial {create : ℚ → Option ℚ × Option ℚ} {f : ℚ → ℚ}
    (h : ∀ d, create d = (some (f d), none) ∨ create d = (none, some (f d)) ∨ create d = (some (f d), some (f d))) (before : Option ℚ)
    (ds : List ℚ) :
    (spacings create before ds).2 = true ∧
    (spacings create before ds).1.map (fun l => l.desired) =
      ds.takeWhile (fun d => f d = d) ++ (ds.dropWhile fun d => f d = d).take 1 := by
  induction ds generalizing before with
  | nil => simp [spacings]
  | cons d ds ih =>
    have hr : returned before ⟨d, (create d).1, (create d).2⟩ = some (f d) := by
      rcases h d with e | e | e <;> rw [e] <;> rfl
    rw [spacings, hr]
    by_cases hd : f d = d
    · simpa [hd] using ih (some d)
    · simp [hd]

/-- So every desired spacing that can be reached is made when the desired spacings descend and everything from a limit up can be reached. -/
theorem C178_reached_partial {create : ℚ → Option ℚ × Option ℚ} {f : ℚ → ℚ} {m : ℚ}
    (h : ∀ d, create d = (some (f d), none) ∨ create d = (none, some (f d)) ∨ create d = (some (f d), some (f d)))
    (hf : ∀ d, f d = d ↔ m ≤ d) {ds : List ℚ} (hs : ds.Pairwise (· > ·)) {d : ℚ} (hd : d ∈ ds) (hm : m ≤ d) :
    d ∈ (spacings create none ds).1.map fun l => l.desired := by
  rw [(C178_until_partial h none ds).2]
  apply List.mem_append_left
  induction ds with
  | nil => cases hd
  | cons e es ih =>
    rw [List.pairwise_cons] at hs
    rcases List.mem_cons.mp hd with rfl | hd
    · rw [List.takeWhile_cons, if_pos (by simpa using (hf d).mpr hm)]
      exact List.mem_cons_self
    · have he : m ≤ e := hm.trans (hs.1 d hd).le
      rw [List.takeWhile_cons, if_pos (by simpa using (hf e).mpr he)]
      exact List.mem_cons_of_mem _ (ih hs.2 hd)

/-- A recording for which no profile is made ends with an exception (and so with a report) at the first spacing. -/
theorem C178_none {create : ℚ → Option ℚ × Option ℚ} {d : ℚ} (h : create d = (none, none)) (ds : List ℚ) :
    spacings create none (d :: ds) = ([⟨d, none, none⟩], false) := by
  rw [spacings, h]
  rfl

/-- Full property: for every desired spacing that a profile of the recording can reach, that profile is made.  False for a chord whose egress is
sampled more coarsely than its ingress: the spacings that only the ingress reaches, below the first that the egress does not reach, are
not tried. -/
theorem C178_chord_false : ∃ create : ℚ → Option ℚ × Option ℚ, (∀ d, 1 / 40 ≤ d → (create d).1 = some d) ∧
    (∀ l ∈ (spacings create none [1 / 2, 1 / 4, 1 / 10, 1 / 20, 1 / 40]).1, l.desired ≠ 1 / 40) ∧
    (spacings create none [1 / 2, 1 / 4, 1 / 10, 1 / 20, 1 / 40]).1.length = 3 := by
  refine ⟨fun d => (some d, some (max d (1 / 5))), fun d _ => rfl, ?_, ?_⟩
  · decide +kernel
  · decide +kernel

/-! ### C179: tasks that fail -/

/-- The merged table has the rows of the tables that the tasks wrote, in the order of the radii; a task that failed is only missing. -/
theorem C179_rows {α : Type} (hasOld : Bool) (tasks : List (Option (List (ℚ × α)))) (h0 : ∃ f, some f ∈ tasks)
    (h2 : ∀ f, some f ∈ tasks → 2 ≤ f.length) (hs : ∀ f, some f ∈ tasks → f.Pairwise fun x y => x.1 < y.1)
    (ha : Verif.Batch.Spec.Apart (tasks.filterMap id)) :
    ∃ out, runTasks true hasOld [] tasks = .ok out ∧ out.Perm (tasks.filterMap id).flatten ∧ out.Pairwise fun x y => x.1 < y.1 := by
  have hm : ∀ f, f ∈ tasks.filterMap id ↔ some f ∈ tasks := by simp
  have hne : tasks.filterMap id ≠ [] := by
    obtain ⟨f, hf⟩ := h0
    exact List.ne_nil_of_mem ((hm f).mpr hf)
  obtain ⟨out, e, r⟩ := C125_merge_partial hne (fun f hf => h2 f ((hm f).mp hf)) (fun f hf => hs f ((hm f).mp hf)) ha
  refine ⟨out, ?_, r⟩
  rw [← e]
  cases hasOld <;> simp [runTasks, tables, clear]

/-- When no task fails the merged table has the rows of all pieces. -/
theorem C179_all_partial {α : Type} (hasOld : Bool) (pieces : List (List (ℚ × α))) (h0 : pieces ≠ []) (h2 : ∀ f ∈ pieces, 2 ≤ f.length)
    (hs : ∀ f ∈ pieces, f.Pairwise fun x y => x.1 < y.1) (ha : Verif.Batch.Spec.Apart pieces) :
    ∃ out, runTasks true hasOld [] (pieces.map some) = .ok out ∧ out.Perm pieces.flatten ∧ out.Pairwise fun x y => x.1 < y.1 := by
  have e : (pieces.map some).filterMap id = pieces := by simp
  have := C179_rows hasOld (pieces.map some) (by
    obtain ⟨f, hf⟩ := List.exists_mem_of_ne_nil _ h0
    exact ⟨f, List.mem_map_of_mem hf⟩) (by simpa using h2) (by simpa using hs) (by rwa [e])
  rwa [e] at this

/-- Full property: the merged table has the rows of every piece, or there is no merged table.  False: when the task of the middle piece fails,
a table without its rows is written and the program ends as usual. -/
theorem C179_gap_false : runTasks (α := Unit) true true []
    [some [(1, ()), (2, ())], none, some [(5, ()), (6, ())]] = .ok [(1, ()), (2, ()), (5, ()), (6, ())] := by decide +kernel

/-! ### C180: tables of an earlier run -/

/-- With a directory `old/` nothing of an earlier run has an influence. -/
theorem C180_cleared_partial {α : Type} (stale : List (List (ℚ × α))) (tasks : List (Option (List (ℚ × α)))) :
    runTasks true true stale tasks = runTasks true true [] tasks := by
  simp [runTasks, clear]

/-- Full property: with `clean` nothing of an earlier run has an influence.  False when there is no directory `old/`: moving fails, and the
rows of the earlier run are merged with the new ones. -/
theorem C180_stale_false : runTasks (α := String) true false [[(1, "old"), (2, "old")]] [some [(1, "new"), (2, "new")]] =
    .ok [(1, "old"), (2, "old"), (1, "new"), (2, "new")] := by decide +kernel

/-! ### C181: the versions of the pieces -/

theorem looks_all {filestr filtyp day : List Char} {files : List (List Char)} {t : List Char}
    (ht : Verif.Out.title filestr filtyp day (some files) = .ok t) (l : List Nat) (ts : List (Nat × List Char)) :
    (l.map Event.looks).foldlM (event filestr filtyp day) ⟨files, ts⟩ = .ok ⟨files, (l.map fun i => (i, t)).reverse ++ ts⟩ := by
  induction l generalizing ts with
  | nil => rfl
  | cons i l ih =>
    rw [List.map_cons, List.foldlM_cons]
    simp only [event, ht, bind, Except.bind]
    have := ih ((i, t) :: ts)
    simp only [List.map_cons, List.reverse_cons, List.append_assoc, List.singleton_append]
    exact this

theorem writes_all {filestr filtyp day : List Char} (l : List Nat) (s : Pieces) :
    ∃ files, (l.map Event.writes).foldlM (event filestr filtyp day) s = .ok ⟨files, s.titles⟩ := by
  induction l generalizing s with
  | nil => exact ⟨s.files, rfl⟩
  | cons i l ih =>
    rw [List.map_cons, List.foldlM_cons]
    simp only [event, bind, Except.bind]
    obtain ⟨files, h⟩ := ih { s with files := s.files ++ ((s.titles.lookup i).toList.flatMap fun t =>
      [Verif.Out.written t ".TAB".toList ++ suffix i, Verif.Out.written t ".LBL".toList ++ suffix i]) }
    exact ⟨files, h⟩

/-- When every task looks at the directory before the first of them writes, all pieces have the same title, and so the same version. -/
theorem C181_before_partial {filestr filtyp day : List Char} {files : List (List Char)} {t : List Char}
    (ht : Verif.Out.title filestr filtyp day (some files) = .ok t) (l w : List Nat) :
    ∃ s, play filestr filtyp day files (l.map Event.looks ++ w.map Event.writes) = .ok s ∧ ∀ x ∈ s.titles, x.2 = t := by
  obtain ⟨fs, h⟩ := writes_all (filestr := filestr) (filtyp := filtyp) (day := day) w ⟨files, (l.map fun i => (i, t)).reverse ++ []⟩
  refine ⟨⟨fs, (l.map fun i => (i, t)).reverse ++ []⟩, ?_, ?_⟩
  · rw [play, List.foldlM_append, looks_all ht l []]
    simpa only [bind, Except.bind] using h
  · simp

/-- Full property: all pieces of a run have the same version.  False: a task that looks after another has written takes the next version. -/
theorem C181_versions_false :
    (play "RSS_2005_123_X43_E".toList "TAU_01000M".toList "20260130".toList []
      [.looks 0, .writes 0, .looks 1, .writes 1]).map Pieces.files =
    .ok ["RSS_2005_123_X43_E_TAU_01000M_20260130_0001.TAB.0001".toList, "RSS_2005_123_X43_E_TAU_01000M_20260130_0001.LBL.0001".toList,
      "RSS_2005_123_X43_E_TAU_01000M_20260130_0002.TAB.0002".toList, "RSS_2005_123_X43_E_TAU_01000M_20260130_0002.LBL.0002".toList] := by
  decide +kernel

/-! ### Examples -/

/-- Two failures in different seconds. -/
example : ∀ r ∈ [(10, "one".toList), (11, "two".toList)],
    ("p".toList ++ Verif.Out.decimal r.1 ++ ['.', 'e', 'r', 'r'], r.2) ∈
      reportFiles "p".toList Verif.Out.decimal [(10, "one".toList), (11, "two".toList)] :=
  C176_kept_partial _ _ _ (by decide +kernel)

example : "one".toList ≠ "two".toList := by decide +kernel

/-- Two tasks with a GEO and a CAL entry each. -/
example : [(0, "CAL"), (0, "GEO"), (1, "CAL"), (1, "GEO")].Perm [[(0, "GEO"), (0, "CAL")], [(1, "GEO"), (1, "CAL")]].flatten := by
  decide +kernel

example : [(0, "GEO"), (1, "GEO"), (0, "CAL"), (1, "CAL")].filter (fun a => decide (a.1 = 1)) = [(1, "GEO"), (1, "CAL")] :=
  C177_order (ls := [[(0, "GEO"), (0, "CAL")], [(1, "GEO"), (1, "CAL")]]) (tag := Prod.fst) (name := fun i => i)
    (C177_mixed (0, "GEO") (0, "CAL") (1, "GEO") (1, "CAL")) (fun _ _ _ _ e => e) (by
      intro i l h
      match i with
      | 0 => simp only [List.getElem?_cons_zero, Option.some.injEq] at h; subst h; decide +kernel
      | 1 => simp only [List.getElem?_cons_succ, List.getElem?_cons_zero, Option.some.injEq] at h; subst h; decide +kernel
      | i + 2 => simp at h) 1 _ rfl

/-- An egress that reaches 50 m: the last desired spacing, 25 m, is not reached, and a profile of 50 m is made again for it. -/
example : spacings (fun d => (none, some (max d (1 / 20)))) none [1 / 2, 1 / 4, 1 / 10, 1 / 20, 1 / 40] =
    ([⟨1 / 2, none, some (1 / 2)⟩, ⟨1 / 4, none, some (1 / 4)⟩, ⟨1 / 10, none, some (1 / 10)⟩, ⟨1 / 20, none, some (1 / 20)⟩,
      ⟨1 / 40, none, some (1 / 20)⟩], true) := by decide +kernel

example : (1 / 20 : ℚ) ∈ (spacings (fun d => (none, some (max d (1 / 20)))) none [1 / 2, 1 / 4, 1 / 10, 1 / 20, 1 / 40]).1.map
    fun l => l.desired :=
  C178_reached_partial (f := fun d => max d (1 / 20)) (m := 1 / 20) (fun d => .inr (.inl rfl)) (fun d => max_eq_left_iff)
    (by decide +kernel) (by decide +kernel) le_rfl

example : ∃ out, runTasks (α := Unit) true false [] ([[(5, ()), (6, ())], [(1, ()), (2, ())]].map some) = .ok out ∧
    out.Perm [[(5, ()), (6, ())], [(1, ()), (2, ())]].flatten ∧ out.Pairwise fun x y => x.1 < y.1 :=
  C179_all_partial false _ (by decide) (by decide) (by decide +kernel) (by unfold Verif.Batch.Spec.Apart; decide +kernel)

example : Verif.Out.title "RSS_2005_123_X43_E".toList "TAU_01000M".toList "20260130".toList (some []) =
    .ok "RSS_2005_123_X43_E_TAU_01000M_20260130_0001".toList := by decide +kernel

end Verif.Runs
