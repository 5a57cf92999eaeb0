import Verif.Model.BatchRun

/-!
# C174 and C175: a batch goes on after a recording that fails
-/
namespace Verif.Runs
open Verif

namespace Spec

/-- The recordings of a list that are to be processed, with their numbers, counted from `n`. -/
def todo (skip : List Char → Bool) (n : Nat) (files : List (List Char)) : List (List Char × Nat) :=
  (files.zipIdx n).filter fun x => skip x.1 = false

/-- The entries of the error file: number and path of every recording that fails. -/
def failures (work : List Char → Ending) (t : List (List Char × Nat)) : List (Nat × List Char) :=
  (t.filter fun x => work x.1 = .fails).map fun x => (x.2, x.1)

end Spec
open Spec

theorem todo_cons (skip : List Char → Bool) (n : Nat) (p : List Char) (ps : List (List Char)) :
    todo skip n (p :: ps) = if skip p = false then (p, n) :: todo skip (n + 1) ps else todo skip (n + 1) ps := by
  unfold todo
  rw [List.zipIdx_cons, List.filter_cons]
  simp

theorem failures_cons (work : List Char → Ending) (x : List Char × Nat) (t : List (List Char × Nat)) :
    failures work (x :: t) = if work x.1 = .fails then (x.2, x.1) :: failures work t else failures work t := by
  unfold failures
  rw [List.filter_cons]
  by_cases h : work x.1 = .fails <;> simp [h]

theorem loop_from {skip : List Char → Bool} {work : List Char → Ending} (files : List (List Char)) (n : Nat)
    (h : ∀ p ∈ files, skip p = false → work p ≠ .interrupted) :
    loop skip work n files = ⟨(todo skip n files).map Prod.snd, failures work (todo skip n files), .finished⟩ := by
  induction files generalizing n with
  | nil => simp [loop, todo, failures]
  | cons p ps ih =>
    have ih' := ih (n + 1) fun q hq => h q (List.mem_cons_of_mem _ hq)
    have hp := h p List.mem_cons_self
    rw [loop, todo_cons]
    cases hs : skip p with
    | true => simpa [hs] using ih'
    | false =>
      simp only [Bool.false_eq_true, if_false, if_true, ih', Run.after, List.map_cons, failures_cons]
      cases hw : work p with
      | fine => simp
      | fails => simp
      | interrupted => exact absurd hw (hp hs)

/-- Without an interruption every recording of the list that is not skipped is begun, once and in order, whatever fails; the error file
has an entry for every one that failed, with its number in the list and its path, and no other. -/
theorem C174_all (skip : List Char → Bool) (work : List Char → Ending) (files : List (List Char))
    (h : ∀ p ∈ files, skip p = false → work p ≠ .interrupted) :
    loop skip work 0 files = ⟨(todo skip 0 files).map Prod.snd, failures work (todo skip 0 files), .finished⟩ :=
  loop_from files 0 h

/-- An interruption ends the batch: what was done and reported before stays, and nothing is begun afterwards. -/
theorem C174_interrupted (skip : List Char → Bool) (work : List Char → Ending) (a b : List (List Char)) (p : List Char)
    (h : ∀ q ∈ a, skip q = false → work q ≠ .interrupted) (hs : skip p = false) (hp : work p = .interrupted) :
    loop skip work 0 (a ++ p :: b) = ⟨(todo skip 0 a).map Prod.snd ++ [a.length], failures work (todo skip 0 a), .exits⟩ := by
  suffices ∀ n, loop skip work n (a ++ p :: b) =
      ⟨(todo skip n a).map Prod.snd ++ [n + a.length], failures work (todo skip n a), .exits⟩ by simpa using this 0
  induction a with
  | nil => intro n; simp [loop, todo, failures, hs, hp]
  | cons q qs ih =>
    intro n
    have ih' := ih (fun r hr => h r (List.mem_cons_of_mem _ hr)) (n + 1)
    have hq := h q List.mem_cons_self
    rw [List.cons_append, loop, todo_cons, List.length_cons]
    have e : n + 1 + qs.length = n + (qs.length + 1) := by omega
    cases hsq : skip q with
    | true => simpa [hsq, e] using ih'
    | false =>
      simp only [Bool.false_eq_true, if_false, if_true, ih', Run.after, List.map_cons, failures_cons, e]
      cases hw : work q with
      | fine => simp
      | fails => simp
      | interrupted => exact absurd hw (hq hsq)

/-- Which recordings are skipped: none when 16 kHz is asked for, and otherwise those whose name ends with 2. -/
theorem C174_skipped (p : List Char) : skip16 true p = false ∧ (skip16 false p = true ↔ ∃ q, p = q ++ ['2']) := by
  constructor
  · simp [skip16]
  · simp only [skip16, Bool.not_false, Bool.and_true, beq_iff_eq]
    constructor
    · intro h
      exact ⟨p.dropLast, (List.dropLast_append_getLast? _ h).symm⟩
    · rintro ⟨q, rfl⟩
      simp

/-- The list: in a directory without `#` in its path the recordings are the lines without `#`, in their order. -/
theorem C174_comments {dir : List Char} (hd : '#' ∉ dir) (lines : List (List Char)) :
    uncommented dir lines = (lines.filter fun l => '#' ∉ l).map (dir ++ ·) := by
  unfold uncommented paths
  rw [List.filter_map]
  congr 1
  apply List.filter_congr
  intro l _
  simp [hd]

/-! ### C175 -/

/-- dlp_batch.py: when nothing fails every recording is begun. -/
theorem C175_fine_partial (work : List Char → Ending) (files : List (List Char)) (h : ∀ p ∈ files, skip5 p = false → work p = .fine) :
    loopDlp work 0 files = ⟨(todo skip5 0 files).map Prod.snd, [], .finished⟩ := by
  suffices ∀ n, loopDlp work n files = ⟨(todo skip5 n files).map Prod.snd, [], .finished⟩ from this 0
  induction files with
  | nil => intro n; simp [loopDlp, todo]
  | cons p ps ih =>
    intro n
    have ih' := ih (fun q hq => h q (List.mem_cons_of_mem _ hq)) (n + 1)
    have hp := h p List.mem_cons_self
    rw [loopDlp, todo_cons]
    cases hs : skip5 p with
    | true => simpa [hs] using ih'
    | false => simp [ih', Run.after, hp hs]

/-- dlp_batch.py: the first recording that fails ends the batch with an exception of the handler.  No later one is begun. -/
theorem C175_first (work : List Char → Ending) (a b : List (List Char)) (p : List Char)
    (h : ∀ q ∈ a, skip5 q = false → work q = .fine) (hs : skip5 p = false) (hp : work p = .fails) :
    loopDlp work 0 (a ++ p :: b) = ⟨(todo skip5 0 a).map Prod.snd ++ [a.length], [], .raises⟩ := by
  suffices ∀ n, loopDlp work n (a ++ p :: b) = ⟨(todo skip5 n a).map Prod.snd ++ [n + a.length], [], .raises⟩ by simpa using this 0
  induction a with
  | nil => intro n; simp [loopDlp, todo, hs, hp]
  | cons q qs ih =>
    intro n
    have ih' := ih (fun r hr => h r (List.mem_cons_of_mem _ hr)) (n + 1)
    have hq := h q List.mem_cons_self
    rw [List.cons_append, loopDlp, todo_cons, List.length_cons]
    have e : n + 1 + qs.length = n + (qs.length + 1) := by omega
    cases hsq : skip5 q with
    | true => simpa [hsq, e] using ih'
    | false => simp [ih', Run.after, hq hsq, e]

/-- Full property: `loopDlp work 0 files` begins every recording that is not skipped and reports every failure, as in `C174_all`.  False: after
a recording that fails the others are not begun, and there is no report. -/
theorem C175_failure_false : ∃ (work : List Char → Ending) (files : List (List Char)),
    (∀ p ∈ files, work p ≠ .interrupted) ∧
    loopDlp work 0 files ≠ ⟨(todo skip5 0 files).map Prod.snd, failures work (todo skip5 0 files), .finished⟩ ∧
    (loopDlp work 0 files).begun = [0] ∧ (loopDlp work 0 files).reports = [] := by
  refine ⟨fun p => if p = "a.2A1".toList then .fails else .fine, ["a.2A1".toList, "b.2A1".toList, "c.2A1".toList], ?_, ?_, ?_, ?_⟩
  · intro p hp
    dsimp only
    split <;> simp
  all_goals decide +kernel

/-! ### Examples -/

/-- The second of four recordings is skipped and the third fails. -/
example : loop (skip16 false) (fun p => if p = "c.1".toList then .fails else .fine) 0 ["a.1".toList, "b.2".toList, "c.1".toList, "d.1".toList] =
    ⟨[0, 2, 3], [(2, "c.1".toList)], .finished⟩ := by decide +kernel

example : ∀ p ∈ ["a.1".toList, "b.2".toList], skip16 false p = false →
    (fun p : List Char => if p = "a.1".toList then Ending.fails else .fine) p ≠ .interrupted := by decide +kernel

/-- Interrupted during the second. -/
example : loop (skip16 true) (fun p => if p = "b.2".toList then .interrupted else .fails) 0 ["a.1".toList, "b.2".toList, "c.1".toList] =
    ⟨[0, 1], [(0, "a.1".toList)], .exits⟩ :=
  C174_interrupted (skip16 true) _ ["a.1".toList] ["c.1".toList] "b.2".toList (by decide +kernel) (by decide +kernel) (by decide +kernel)

example : skip16 false "S10SROE2005123.2A2".toList = true ∧ skip16 false "S10SROE2005123.2A1".toList = false := by decide +kernel

example : uncommented "../data/".toList ["a.2A1".toList, "#b.2A1".toList, "c.2A1 # late".toList] = ["../data/a.2A1".toList] := by decide +kernel

example : loopDlp (fun _ => .fine) 0 ["a.1".toList, "b.5".toList, "c.1".toList] = ⟨[0, 2], [], .finished⟩ :=
  C175_fine_partial _ _ (by simp)

example : loopDlp (fun p => if p = "c.1".toList then .fails else .fine) 0 ["a.1".toList, "b.5".toList, "c.1".toList, "d.1".toList] =
    ⟨[0, 2], [], .raises⟩ :=
  C175_first _ ["a.1".toList, "b.5".toList] ["d.1".toList] "c.1".toList (by decide +kernel) (by decide +kernel) (by decide +kernel)

end Verif.Runs
