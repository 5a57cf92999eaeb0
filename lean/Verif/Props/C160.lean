import Verif.Model.RunLoop
import Mathlib.Tactic.Linarith
import Mathlib.Tactic.NormNum

/-!
# C160 to C162: the loop over the stations and the history of an optical depth

rss_ringoccs/tools/rss_ringoccs_local_tools.py.
-/
namespace Verif.Loop
namespace Spec

/-- The first directory of a station. -/
def IsFirst (s : List Char) (dirs : List (List Char)) (d : List Char) : Prop := dirs.find? (fun d => decide (s <:+: d)) = some d

/-- No name of a file is part of the name of a directory. -/
def Apart (F : Files) (dirs : List (List Char)) : Prop :=
  ∀ e f, ((∃ p, f ∈ F.glob p e) ∨ f ∈ F.globAll e) → ∀ d ∈ dirs, ¬ f <:+: d

/-- All jobs for one file. -/
def allJobs (js : List Nat) (d f : List Char) : List Done := js.map fun j => ⟨d, f, j⟩

/-- The range lies within the file. -/
def Spanned (rmin rmax : ℚ) (range : ℚ × ℚ) : Prop := rmin ≤ range.1 ∧ range.2 ≤ rmax

end Spec
open Spec

theorem jobs_ok {ok : Done → Bool} {d f : List Char} (js : List Nat) (h : ∀ j ∈ js, ok ⟨d, f, j⟩ = true) (out : List Done) :
    jobs ok d f out js = .go () (out ++ allJobs js d f) := by
  induction js generalizing out with
  | nil => simp [jobs, allJobs]
  | cons j js ih =>
    rw [jobs, if_pos (h j (by simp)), ih fun k hk => h k (List.mem_cons_of_mem _ hk)]
    simp [allJobs]

theorem dirs_none {F : Files} {ok : Done → Bool} {js : List Nat} {s : List Char} {res : Pat} {out : List Done} :
    ∀ {ds : List (List Char)}, (∀ d ∈ ds, ¬ s <:+: d) → overDirs F ok js s res out ds = .go res out
  | [], _ => rfl
  | d :: ds, h => by
    rw [overDirs, if_neg (h d (by simp)), dirs_none fun e he => h e (List.mem_cons_of_mem _ he)]

/-- What is left of one directory. -/
def atDir (F : Files) (ok : Done → Bool) (js : List Nat) (res : Pat) (out : List Done) (d : List Char) : Flow Pat :=
  match F.glob res d with
  | f :: _ => match jobs ok d f out js with | .go _ out => .go res out | .stop out => .stop out
  | [] => match F.globAll d with
    | f :: _ => match jobs ok d f out js with | .go _ out => .go .any out | .stop out => .stop out
    | [] => .stop out

theorem dirs_first {F : Files} {ok : Done → Bool} {js : List Nat} {s : List Char} {res : Pat} {out : List Done} :
    ∀ {ds : List (List Char)} {d : List Char}, Apart F ds → IsFirst s ds d → overDirs F ok js s res out ds = atDir F ok js res out d
  | [], d, _, h => by cases h
  | e :: ds, d, ha, h => by
    have ha' : Apart F ds := fun x f hf y hy => ha x f hf y (List.mem_cons_of_mem _ hy)
    unfold IsFirst at h
    rw [List.find?_cons] at h
    by_cases hs : s <:+: e
    · simp only [hs, decide_true, if_true, Option.some.injEq] at h
      subst h
      rw [overDirs, if_pos hs, atDir]
      cases h1 : F.glob res e with
      | cons f fs =>
        simp only
        have : ∀ x ∈ ds, ¬ f <:+: x := fun x hx => ha' e f (.inl ⟨res, by rw [h1]; simp⟩) x hx
        cases jobs ok e f out js with
        | go u out => simp only [dirs_none this]
        | stop out => rfl
      | nil =>
        simp only
        cases h2 : F.globAll e with
        | cons f fs =>
          simp only
          have : ∀ x ∈ ds, ¬ f <:+: x := fun x hx => ha' e f (.inr (by rw [h2]; simp)) x hx
          cases jobs ok e f out js with
          | go u out => simp only [dirs_none this]
          | stop out => rfl
        | nil => rfl
    · simp only [hs, decide_false] at h
      rw [overDirs, if_neg hs]
      exact dirs_first ha' h

/-- **C160.** (Full claim: every directory of every station is processed, with the resolution asked for.)  When the first directory of each
station has a file of that resolution, and no job fails, those directories are processed with their first such file, in order. -/
theorem C160_first_partial {F : Files} {ok : Done → Bool} {js : List Nat} {dirs : List (List Char)} (ha : Apart F dirs) :
    ∀ {todo : List (List Char × List Char × List Char)} (out : List Done),
      (∀ t ∈ todo, IsFirst t.1 dirs t.2.1 ∧ (F.glob .wanted t.2.1).head? = some t.2.2 ∧ ∀ j ∈ js, ok ⟨t.2.1, t.2.2, j⟩ = true) →
      overStations F ok js dirs .wanted out (todo.map (·.1)) = .go .wanted (out ++ todo.flatMap fun t => allJobs js t.2.1 t.2.2)
  | [], out, _ => by simp [overStations]
  | (s, d, f) :: todo, out, h => by
    obtain ⟨h1, h2, h3⟩ := h (s, d, f) (by simp)
    have hd : atDir F ok js .wanted out d = .go .wanted (out ++ allJobs js d f) := by
      unfold atDir
      cases hg : F.glob .wanted d with
      | nil => rw [hg] at h2; cases h2
      | cons g gs =>
        rw [hg] at h2
        cases h2
        simp only [jobs_ok js h3]
    rw [List.map_cons, overStations, dirs_first ha h1, hd]
    simp only
    rw [C160_first_partial ha _ fun t ht => h t (List.mem_cons_of_mem _ ht)]
    simp

/-- **C160.** A second directory of the station is never processed: all that is added for a station is of its first directory. -/
theorem C160_second_false {F : Files} {ok : Done → Bool} {js : List Nat} {dirs : List (List Char)} {s d : List Char} {res : Pat} (ha : Apart F dirs)
    (h : IsFirst s dirs d) : ∀ x, (∃ r, overDirs F ok js s res [] dirs = .go r x) ∨ overDirs F ok js s res [] dirs = .stop x → ∀ e ∈ x, e.dir = d := by
  have hj : ∀ (f : List Char) (l : List Nat) (o : List Done), (∀ e ∈ o, e.dir = d) → (∀ y, jobs ok d f o l = .go () y ∨ jobs ok d f o l = .stop y → ∀ e ∈ y, e.dir = d) := by
    intro f l
    induction l with
    | nil =>
      intro o ho y hy
      rcases hy with hy | hy
      · cases hy; exact ho
      · cases hy
    | cons j l ih =>
      intro o ho y hy
      rw [jobs] at hy
      split at hy
      · refine ih _ ?_ y hy
        intro e he
        rcases List.mem_append.mp he with he | he
        · exact ho e he
        · rw [List.mem_singleton.mp he]
      · rcases hy with hy | hy
        · cases hy
        · cases hy; exact ho
  intro x hx
  rw [dirs_first ha h] at hx
  unfold atDir at hx
  split at hx
  · rename_i f _ _
    cases hc : jobs ok d f [] js with
    | go u y =>
      rw [hc] at hx
      rcases hx with ⟨r, hx⟩ | hx
      · cases hx; exact hj f js [] (by simp) _ (.inl hc)
      · cases hx
    | stop y =>
      rw [hc] at hx
      rcases hx with ⟨r, hx⟩ | hx
      · cases hx
      · cases hx; exact hj f js [] (by simp) _ (.inr hc)
  · split at hx
    · rename_i f _ _
      cases hc : jobs ok d f [] js with
      | go u y =>
        rw [hc] at hx
        rcases hx with ⟨r, hx⟩ | hx
        · cases hx; exact hj f js [] (by simp) _ (.inl hc)
        · cases hx
      | stop y =>
        rw [hc] at hx
        rcases hx with ⟨r, hx⟩ | hx
        · cases hx
        · cases hx; exact hj f js [] (by simp) _ (.inr hc)
    · rcases hx with ⟨r, hx⟩ | hx
      · cases hx
      · cases hx; simp

/-- **C160.** After a directory without the resolution asked for, the next station is processed with any resolution, although it has the one
asked for. -/
theorem C160_sticky_false {F : Files} {ok : Done → Bool} {js : List Nat} {dirs : List (List Char)} {s1 s2 d1 d2 f1 g2 : List Char} (ha : Apart F dirs)
    (h1 : IsFirst s1 dirs d1) (h2 : IsFirst s2 dirs d2) (hn : F.glob .wanted d1 = []) (hf : (F.globAll d1).head? = some f1)
    (hg : (F.glob .any d2).head? = some g2) (hok : ∀ e, ok e = true) :
    overStations F ok js dirs .wanted [] [s1, s2] = .go .any (allJobs js d1 f1 ++ allJobs js d2 g2) := by
  rw [overStations, dirs_first ha h1, atDir, hn]
  cases hc : F.globAll d1 with
  | nil => rw [hc] at hf; cases hf
  | cons f fs =>
    rw [hc] at hf; cases hf
    simp only [jobs_ok js fun j _ => hok _, List.nil_append]
    rw [overStations, dirs_first ha h2, atDir]
    cases hd : F.glob .any d2 with
    | nil => rw [hd] at hg; cases hg
    | cons g gs =>
      rw [hd] at hg; cases hg
      simp only [jobs_ok js fun j _ => hok _, overStations]

/-- Three directories: `1A`, `2A` and `1B`; the file of `1A` is called `w` if it has the resolution asked for, the others `v`. -/
def demo (has : List Char → Bool) : Files where
  glob p d := match p with | .wanted => if has d then [['w']] else [] | .any => [['v'], ['w']]
  globAll _ := [['v'], ['w']]

/-- Station `A` has two directories; only the first is processed. -/
example : overStations (demo fun _ => true) (fun _ => true) [0] [['1', 'A'], ['2', 'A'], ['1', 'B']] .wanted [] [['A'], ['B']] =
    .go .wanted [⟨['1', 'A'], ['w'], 0⟩, ⟨['1', 'B'], ['w'], 0⟩] := by decide +kernel

/-- `1A` has not the resolution, `1B` has it; both are processed with `v`. -/
example : overStations (demo fun d => d == ['1', 'B']) (fun _ => true) [0] [['1', 'A'], ['2', 'A'], ['1', 'B']] .wanted [] [['A'], ['B']] =
    .go .any [⟨['1', 'A'], ['v'], 0⟩, ⟨['1', 'B'], ['v'], 0⟩] := by decide +kernel

theorem demo_apart (has : List Char → Bool) : Apart (demo has) [['1', 'A'], ['2', 'A'], ['1', 'B']] := by
  intro e f hf d hd
  have : f = ['v'] ∨ f = ['w'] := by
    rcases hf with ⟨p, hp⟩ | hp
    · cases p
      · by_cases h : has e = true
        · exact .inr (by simpa [demo, h] using hp)
        · simp [demo, h] at hp
      · simpa [demo] using hp
    · simpa [demo] using hp
  have hd : d = ['1', 'A'] ∨ d = ['2', 'A'] ∨ d = ['1', 'B'] := by simpa using hd
  rcases this with rfl | rfl <;> rcases hd with rfl | rfl | rfl <;> decide

/-- The hypotheses hold for the stations `A` and `B`. -/
example : overStations (demo fun _ => true) (fun _ => true) [0, 1] [['1', 'A'], ['2', 'A'], ['1', 'B']] .wanted [] [['A'], ['B']] =
    .go .wanted ([] ++ [(['A'], ['1', 'A'], ['w']), (['B'], ['1', 'B'], ['w'])].flatMap fun t => allJobs [0, 1] t.2.1 t.2.2) :=
  C160_first_partial (demo_apart _) (todo := [(['A'], ['1', 'A'], ['w']), (['B'], ['1', 'B'], ['w'])]) []
    (by intro t ht; rcases List.mem_pair.mp ht with rfl | rfl <;> exact ⟨by unfold IsFirst; decide +kernel, rfl, fun _ _ => rfl⟩)

/-- Nothing of `2A` is in what the station `A` gives. -/
example : ∀ e ∈ [(⟨['1', 'A'], ['w'], 0⟩ : Done)], e.dir = ['1', 'A'] :=
  C160_second_false (F := demo fun _ => true) (ok := fun _ => true) (js := [0]) (s := ['A']) (res := .wanted) (demo_apart _)
    (by unfold IsFirst; decide +kernel) _ (.inl ⟨.wanted, by decide +kernel⟩)

/-- **C160.** (Full claim: whenever the range is not within the file.)  A range that begins outside the file is told. -/
theorem C160_warned_partial {rmin rmax : ℚ} {range : ℚ × ℚ} (h : warned rmin rmax range = true) (hr : range.1 ≤ range.2) : ¬ Spanned rmin rmax range := by
  rintro ⟨h1, h2⟩
  simp only [warned, Bool.or_eq_true, decide_eq_true_eq] at h
  rcases h with h | h <;> linarith

/-- A file that begins at 80000 km and a range from 70000 km. -/
example : ¬ Spanned 80000 90000 (70000, 85000) := C160_warned_partial (by decide +kernel) (by norm_num)

/-- **C160.** A range that begins within the file and ends outside is never told. -/
theorem C160_warned_false {rmin rmax : ℚ} {range : ℚ × ℚ} (h1 : rmin ≤ range.1) (h2 : range.1 ≤ rmax) (h3 : rmax < range.2) :
    warned rmin rmax range = false ∧ ¬ Spanned rmin rmax range := by
  refine ⟨?_, fun ⟨_, h⟩ => absurd h (not_le.mpr h3)⟩
  simp only [warned, Bool.or_eq_false_iff, decide_eq_false_iff_not, not_lt]
  exact ⟨h1, h2⟩

/-- A range of which one half is in the file. -/
example : warned 80000 90000 (85000, 95000) = false := (C160_warned_false (by norm_num) (by norm_num) (by norm_num)).1

/-- `a` is `b` up to the first piece of work that fails. -/
def Cut {α : Type} (ok : Done → Bool) (out : List Done) (a b : Flow α) : Prop :=
  ∃ L, ((∃ r, b = .go r (out ++ L)) ∨ b = .stop (out ++ L)) ∧ (L.all ok = true → a = b) ∧ (L.all ok = false → a = .stop (out ++ L.takeWhile ok))

theorem jobs_cut (ok : Done → Bool) (d f : List Char) (js : List Nat) (out : List Done) :
    Cut ok out (jobs ok d f out js) (jobs (fun _ => true) d f out js) := by
  rw [jobs_ok (ok := fun _ => true) js (fun _ _ => rfl)]
  refine ⟨allJobs js d f, .inl ⟨(), rfl⟩, ?_, ?_⟩
  · intro h
    apply jobs_ok
    intro j hj
    exact List.all_eq_true.mp h _ (List.mem_map.mpr ⟨j, hj, rfl⟩)
  · intro h
    induction js generalizing out with
    | nil => simp [allJobs] at h
    | cons j js ih =>
      rw [jobs]
      by_cases hj : ok ⟨d, f, j⟩ = true
      · rw [if_pos hj, ih _ (by simpa [allJobs, hj] using h)]
        simp [allJobs, hj]
      · rw [if_neg hj]
        simp [allJobs, hj]

theorem takeWhile_holds {ok : Done → Bool} {L : List Done} {x : Done} (h : x ∈ L.takeWhile ok) : ok x = true := by
  induction L with
  | nil => simp at h
  | cons y L ih =>
    rw [List.takeWhile_cons] at h
    split at h
    · rename_i hy
      rcases List.mem_cons.mp h with rfl | h
      · exact hy
      · exact ih h
    · simp at h

theorem takeWhile_all {ok : Done → Bool} {L : List Done} (h : ∀ x ∈ L, ok x = true) : L.takeWhile ok = L := by
  induction L with
  | nil => rfl
  | cons y L ih => rw [List.takeWhile_cons, if_pos (h y (by simp)), ih fun x hx => h x (List.mem_cons_of_mem _ hx)]

theorem takeWhile_first {ok : Done → Bool} {L : List Done} (M : List Done) (hl : L.all ok = false) : (L ++ M).takeWhile ok = L.takeWhile ok := by
  obtain ⟨x, hx, hx'⟩ := List.all_eq_false.mp hl
  rw [List.takeWhile_append, if_neg]
  intro hlen
  have he : L.takeWhile ok = L := List.IsPrefix.eq_of_length (List.takeWhile_prefix ok) hlen
  rw [← he] at hx
  exact hx' (takeWhile_holds hx)

theorem Cut.bind {α β : Type} {ok : Done → Bool} {out : List Done} {a b : Flow α} {k k' : α → List Done → Flow β} {x y : Flow β}
    (hk : ∀ r o, Cut ok o (k r o) (k' r o)) (h : Cut ok out a b) (x1 : ∀ r o, a = .go r o → x = k r o) (x2 : ∀ o, a = .stop o → x = .stop o)
    (y1 : ∀ r o, b = .go r o → y = k' r o) (y2 : ∀ o, b = .stop o → y = .stop o) : Cut ok out x y := by
  obtain ⟨L, hb, h1, h2⟩ := h
  rcases Bool.eq_false_or_eq_true (L.all ok) with hl | hl
  · rcases hb with ⟨r, rfl⟩ | rfl
    · obtain ⟨M, hM, g1, g2⟩ := hk r (out ++ L)
      rw [x1 _ _ (h1 hl), y1 _ _ rfl]
      refine ⟨L ++ M, ?_, ?_, ?_⟩
      · simpa [List.append_assoc] using hM
      · intro ha
        rw [List.all_append, hl, Bool.true_and] at ha
        exact g1 ha
      · intro ha
        rw [List.all_append, hl, Bool.true_and] at ha
        rw [g2 ha, List.takeWhile_append_of_pos (fun x hx => List.all_eq_true.mp hl x hx), List.append_assoc]
    · rw [x2 _ (h1 hl), y2 _ rfl]
      exact ⟨L, .inr rfl, fun _ => rfl, fun hf => by rw [hl] at hf; cases hf⟩
  · rw [x2 _ (h2 hl)]
    rcases hb with ⟨r, rfl⟩ | rfl
    · obtain ⟨M, hM, -⟩ := hk r (out ++ L)
      rw [y1 _ _ rfl]
      refine ⟨L ++ M, ?_, ?_, ?_⟩
      · simpa [List.append_assoc] using hM
      · intro ha
        rw [List.all_append, hl, Bool.false_and] at ha
        cases ha
      · intro _
        rw [takeWhile_first M hl]
    · rw [y2 _ rfl]
      refine ⟨L, .inr rfl, ?_, fun _ => rfl⟩
      intro hf
      rw [hl] at hf
      cases hf

theorem cut_self {α : Type} (ok : Done → Bool) (out : List Done) (b : Flow α) (h : (∃ r, b = .go r out) ∨ b = .stop out) : Cut ok out b b := by
  refine ⟨[], ?_, fun _ => rfl, fun h => by simp at h⟩
  rcases h with ⟨r, rfl⟩ | rfl
  · exact .inl ⟨r, by simp⟩
  · exact .inr (by simp)

theorem dirs_cut (F : Files) (ok : Done → Bool) (js : List Nat) (ds : List (List Char)) (s : List Char) (res : Pat) (out : List Done) :
    Cut ok out (overDirs F ok js s res out ds) (overDirs F (fun _ => true) js s res out ds) := by
  induction ds generalizing s res out with
  | nil => exact cut_self _ _ _ (.inl ⟨res, rfl⟩)
  | cons d ds ih =>
    rw [overDirs, overDirs]
    split
    · split
      · rename_i f _ _
        exact Cut.bind (k := fun _ o => overDirs F ok js f res o ds) (k' := fun _ o => overDirs F (fun _ => true) js f res o ds) (fun _ o => ih _ _ o) (jobs_cut ok d f js out)
           (fun _ _ h => by rw [h]) (fun _ h => by rw [h]) (fun _ _ h => by rw [h]) (fun _ h => by rw [h])
      · split
        · rename_i f _ _
          exact Cut.bind (k := fun _ o => overDirs F ok js f .any o ds) (k' := fun _ o => overDirs F (fun _ => true) js f .any o ds) (fun _ o => ih _ _ o) (jobs_cut ok d f js out)
           (fun _ _ h => by rw [h]) (fun _ h => by rw [h]) (fun _ _ h => by rw [h]) (fun _ h => by rw [h])
        · exact cut_self _ _ _ (.inr rfl)
    · exact ih _ _ _

theorem stations_cut (F : Files) (ok : Done → Bool) (js : List Nat) (dirs ss : List (List Char)) (res : Pat) (out : List Done) :
    Cut ok out (overStations F ok js dirs res out ss) (overStations F (fun _ => true) js dirs res out ss) := by
  induction ss generalizing res out with
  | nil => exact cut_self _ _ _ (.inl ⟨res, rfl⟩)
  | cons s ss ih =>
    rw [overStations, overStations]
    exact Cut.bind (k := fun r o => overStations F ok js dirs r o ss) (k' := fun r o => overStations F (fun _ => true) js dirs r o ss) (fun r o => ih r o) (dirs_cut F ok js dirs s res out)
      (fun _ _ h => by rw [h]) (fun _ h => by rw [h]) (fun _ _ h => by rw [h]) (fun _ h => by rw [h])

theorem runs_append (F : Files) (ok : Done → Bool) (js : List Nat) (rs : List (List (List Char) × List (List Char))) (out : List Done) :
    ∃ L, overRuns F (fun _ => true) js out rs = out ++ L ∧ overRuns F ok js out rs = out ++ L.takeWhile ok := by
  induction rs generalizing out with
  | nil => exact ⟨[], by simp [overRuns], by simp [overRuns]⟩
  | cons r rs ih =>
    obtain ⟨stations, dirs⟩ := r
    obtain ⟨L, hb, h1, h2⟩ := stations_cut F ok js dirs stations .wanted out
    rw [overRuns, overRuns]
    rcases Bool.eq_false_or_eq_true (L.all ok) with hl | hl
    · rw [h1 hl]
      rcases hb with ⟨q, hb⟩ | hb
      · rw [hb]
        simp only
        obtain ⟨M, m1, m2⟩ := ih (out ++ L)
        refine ⟨L ++ M, by rw [m1, List.append_assoc], ?_⟩
        rw [m2, List.takeWhile_append_of_pos (fun x hx => List.all_eq_true.mp hl x hx), List.append_assoc]
      · rw [hb]
        exact ⟨L, rfl, by rw [takeWhile_all (List.all_eq_true.mp hl)]⟩
    · rw [h2 hl]
      rcases hb with ⟨q, hb⟩ | hb
      · rw [hb]
        simp only
        obtain ⟨M, m1, -⟩ := ih (out ++ L)
        exact ⟨L ++ M, by rw [m1, List.append_assoc], by rw [takeWhile_first M hl]⟩
      · rw [hb]
        exact ⟨L, rfl, rfl⟩

/-- **C161.** What `runloop` returns is the work that it would do if nothing failed, up to the first piece that fails: everything returned was
done, and nothing after a failure is done, in this run or another. -/
theorem C161_until_failure (F : Files) (ok : Done → Bool) (js : List Nat) (rs : List (List (List Char) × List (List Char))) :
    overRuns F ok js [] rs = (overRuns F (fun _ => true) js [] rs).takeWhile ok := by
  obtain ⟨L, h1, h2⟩ := runs_append F ok js rs []
  rw [h1, h2, List.nil_append, List.nil_append]

/-- **C161.** In particular each piece in the result was done. -/
theorem C161_done (F : Files) (ok : Done → Bool) (js : List Nat) (rs : List (List (List Char) × List (List Char))) {e : Done}
    (h : e ∈ overRuns F ok js [] rs) : ok e = true := by
  rw [C161_until_failure] at h
  exact takeWhile_holds h

/-- Two runs with two jobs; the second job of the first fails, and the second run is not begun. -/
example : overRuns (demo fun _ => true) (fun e => !(e.dir == ['1', 'A'] && e.job == 1)) [0, 1] [] [([['A']], [['1', 'A']]), ([['B']], [['1', 'B']])] =
      [⟨['1', 'A'], ['w'], 0⟩] ∧
    overRuns (demo fun _ => true) (fun _ => true) [0, 1] [] [([['A']], [['1', 'A']]), ([['B']], [['1', 'B']])] =
      [⟨['1', 'A'], ['w'], 0⟩, ⟨['1', 'A'], ['w'], 1⟩, ⟨['1', 'B'], ['w'], 0⟩, ⟨['1', 'B'], ['w'], 1⟩] := by decide +kernel

namespace Spec

/-- The lines of the history: from the last line that begins it, to the first line that closes the text, and that comes first after it. -/
structure Block (contents block : List (List Char)) (head : List Char) : Prop where
  split : ∃ pre post q, contents = pre ++ block ++ ('"' :: q) :: post ∧ ∀ l ∈ pre ++ block, ∀ t, l ≠ '"' :: t
  first : ∃ l rest, block = l :: rest ∧ head <+: l ∧ ∀ m ∈ rest, ¬ head <+: m

end Spec

theorem starts_iff {p t : List Char} : starts p t = true ↔ p <+: t := by rw [starts, List.isPrefixOf_iff_prefix]

theorem scan_quote {q : List Char} {post : List (List Char)} :
    ∀ (pre : List (List Char)) (i : Nat) (a : Option Nat), (∀ l ∈ pre, ∀ t, l ≠ '"' :: t) → (∀ l ∈ pre, ¬ "rsr_inst history:".toList <+: l) →
      scan i a (pre ++ ('"' :: q) :: post) = (a, some (i + pre.length))
  | [], i, a, _, _ => by
    have h : starts "rsr_inst history:".toList ('"' :: q) = false := rfl
    have h' : starts ['"'] ('"' :: q) = true := rfl
    rw [List.nil_append, scan]
    simp only [h, h', if_true, Bool.false_eq_true, if_false, List.length_nil, Nat.add_zero]
  | l :: pre, i, a, h1, h2 => by
    have e1 : starts "rsr_inst history:".toList l = false := by
      rw [Bool.eq_false_iff]; exact fun h => h2 l (by simp) (starts_iff.mp h)
    have e2 : starts ['"'] l = false := by
      rw [Bool.eq_false_iff]
      intro h
      obtain ⟨t, ht⟩ := starts_iff.mp h
      exact h1 l (by simp) t ht.symm
    rw [List.cons_append, scan]
    simp only [e1, e2, Bool.false_eq_true, if_false]
    rw [scan_quote pre (i + 1) a (fun m hm => h1 m (List.mem_cons_of_mem _ hm)) fun m hm => h2 m (List.mem_cons_of_mem _ hm)]
    simp only [List.length_cons, List.length_nil, Prod.mk.injEq, Option.some.injEq, true_and]
    omega

theorem scan_found {q : List Char} {post rest : List (List Char)} {l : List Char} (hq : ∀ m ∈ l :: rest, ∀ t, m ≠ '"' :: t)
    (hl : "rsr_inst history:".toList <+: l) (hr : ∀ m ∈ rest, ¬ "rsr_inst history:".toList <+: m) :
    ∀ (pre : List (List Char)) (i : Nat) (a : Option Nat), (∀ l ∈ pre, ∀ t, l ≠ '"' :: t) →
      scan i a (pre ++ (l :: rest) ++ ('"' :: q) :: post) = (some (i + pre.length), some (i + pre.length + (rest.length + 1)))
  | [], i, a, _ => by
    have e1 : starts "rsr_inst history:".toList l = true := starts_iff.mpr hl
    have e2 : starts ['"'] l = false := by
      rw [Bool.eq_false_iff]
      intro h
      obtain ⟨t, ht⟩ := starts_iff.mp h
      exact hq l (by simp) t ht.symm
    rw [List.nil_append, List.cons_append, scan]
    simp only [e1, e2, Bool.false_eq_true, if_false, if_true]
    rw [scan_quote rest (i + 1) _ (fun m hm => hq m (List.mem_cons_of_mem _ hm)) hr]
    simp only [List.length_cons, List.length_nil, Prod.mk.injEq, Option.some.injEq, true_and]
    omega
  | k :: pre, i, a, h => by
    have e2 : starts ['"'] k = false := by
      rw [Bool.eq_false_iff]
      intro h'
      obtain ⟨t, ht⟩ := starts_iff.mp h'
      exact h k (by simp) t ht.symm
    rw [List.cons_append, List.cons_append, scan]
    simp only [e2, Bool.false_eq_true, if_false]
    rw [scan_found hq hl hr pre (i + 1) _ fun m hm => h m (List.mem_cons_of_mem _ hm)]
    simp only [List.length_cons, Prod.mk.injEq, Option.some.injEq]
    omega

/-- **C162.** Of a label with a history, exactly the lines of the history are copied. -/
theorem C162_block {contents block : List (List Char)} (h : Spec.Block contents block "rsr_inst history:".toList) : priorHistory contents = some block := by
  obtain ⟨⟨pre, post, q, rfl, hq⟩, l, rest, rfl, hl, hr⟩ := h
  rw [priorHistory, scan_found (fun m hm => hq m (List.mem_append_right _ hm)) hl hr pre 0 none fun m hm => hq m (List.mem_append_left _ hm)]
  simp only [Nat.zero_add]
  congr 1
  rw [← List.length_cons (a := l), ← List.length_append, List.take_left, List.drop_left]

/-- A label of five lines. -/
example : priorHistory ["PDS".toList, "rsr_inst history:".toList, "  User".toList, "\"".toList, "END".toList] = some ["rsr_inst history:".toList, "  User".toList] :=
  C162_block ⟨⟨["PDS".toList], ["END".toList], [], rfl, by simp⟩, "rsr_inst history:".toList, ["  User".toList], rfl, by decide, by decide⟩

theorem scan_none_head : ∀ (ls : List (List Char)) (i : Nat), (∀ l ∈ ls, ¬ "rsr_inst history:".toList <+: l) → (scan i none ls).1 = none
  | [], _, _ => rfl
  | l :: ls, i, h => by
    have e1 : starts "rsr_inst history:".toList l = false := by
      rw [Bool.eq_false_iff]; exact fun h' => h l (by simp) (starts_iff.mp h')
    rw [scan]
    simp only [e1, Bool.false_eq_true, if_false]
    split
    · rfl
    · exact scan_none_head ls (i + 1) fun m hm => h m (List.mem_cons_of_mem _ hm)

theorem scan_none_quote : ∀ (ls : List (List Char)) (i : Nat) (a : Option Nat), (∀ l ∈ ls, ∀ t, l ≠ '"' :: t) → (scan i a ls).2 = none
  | [], _, _, _ => rfl
  | l :: ls, i, a, h => by
    have e2 : starts ['"'] l = false := by
      rw [Bool.eq_false_iff]
      intro h'
      obtain ⟨t, ht⟩ := starts_iff.mp h'
      exact h l (by simp) t ht.symm
    rw [scan]
    simp only [e2, Bool.false_eq_true, if_false]
    exact scan_none_quote ls (i + 1) _ fun m hm => h m (List.mem_cons_of_mem _ hm)

/-- **C162.** A label without the first or the closing line of a history ends in an exception. -/
theorem C162_missing {contents : List (List Char)}
    (h : (∀ l ∈ contents, ¬ "rsr_inst history:".toList <+: l) ∨ ∀ l ∈ contents, ∀ t, l ≠ '"' :: t) : priorHistory contents = none := by
  unfold priorHistory
  rcases h with h | h
  · have e := scan_none_head contents 0 h
    split
    · rename_i he; rw [he] at e; cases e
    · rfl
  · have e := scan_none_quote contents 0 none h
    split
    · rename_i he; rw [he] at e; cases e
    · rfl

/-- A label whose history begins otherwise. -/
example : priorHistory ["PDS".toList, "history".toList, "\"".toList] = none := C162_missing (.inl (by decide))

/-- **C163.** (Full claim: of every part.)  The history of the optical depth tells its own arguments. -/
theorem C163_arguments_partial {V : Type} (login : Bool) (new : Key → V) (h : Hists V) (k : Key) (hk : k = .positional ∨ k = .keyword ∨ login = true) :
    (setTauHistory login new h).hist (setTauHistory login new h).tau k = new k := by
  cases login <;> cases k <;> simp [setTauHistory, Hists.set] at hk ⊢

/-- **C163.** Without a terminal (`os.getlogin()` fails) the other parts are those of the DLP file. -/
theorem C163_rest_false {V : Type} (new : Key → V) (h : Hists V) (k : Key) (hk : k ≠ .positional ∧ k ≠ .keyword) :
    (setTauHistory false new h).hist (setTauHistory false new h).tau k = h.hist h.dlp k := by
  cases k <;> simp [setTauHistory, Hists.set] at hk ⊢

/-- **C163.** The history of the DLP object is replaced by that of the optical depth; with a terminal, all of it. -/
theorem C163_shared_false {V : Type} (login : Bool) (new : Key → V) (h : Hists V) (k : Key) (hk : k = .positional ∨ k = .keyword ∨ login = true) :
    (setTauHistory login new h).hist (setTauHistory login new h).dlp k = new k := by
  cases login <;> cases k <;> simp [setTauHistory, Hists.set] at hk ⊢

/-- Two histories, of text. -/
example : (setTauHistory false (fun _ => "tau") ⟨fun i _ => if i = 0 then "none" else "dlp", 0, 1⟩).hist 1 .positional = "tau" ∧
    (setTauHistory false (fun _ => "tau") ⟨fun i _ => if i = 0 then "none" else "dlp", 0, 1⟩).hist 1 .user = "dlp" := by decide

end Verif.Loop
