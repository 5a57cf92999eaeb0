import Verif.Model.Pieces
import Verif.Model.OutName
import Verif.Model.ResName
import Mathlib.Data.Rat.Defs

/-!
# Running a batch: files that fail, tasks that run side by side, and what is left in the temporary directory

pipeline/e2e_batch.py and its relatives process one recording after the other; pipeline/batch_parallel_raw_to_DLP_1kHz_to_50m_20260130.py
and the programs made from pipeline/batch_parallel_CSVtoTAU_template-20260130a.py process several at the same time.

Simplifications: the processing of one recording is a function of its path that succeeds, raises an exception or is interrupted from the
keyboard; texts are lists of characters.
-/
namespace Verif.Runs
open Verif Verif.Rsr Verif.Batch

/-! ## One after the other -/

/-- How the body of the `try` ends for one recording: pipeline/e2e_batch.py 30-106. -/
inductive Ending
  | fine
  | fails
  | interrupted
  deriving DecidableEq, Repr

/-- How the loop ends: to its end, by `sys.exit()`, or with an exception that nothing catches. -/
inductive Stop
  | finished
  | exits
  | raises
  deriving DecidableEq, Repr

/-- What a batch did: the numbers of the recordings that it began with, the entries of the error file, and how it ended. -/
structure Run where
  begun : List Nat
  reports : List (Nat × List Char)
  stop : Stop
  deriving DecidableEq, Repr

/-- The paths of a list, pipeline/e2e_batch.py 12-15: the directory before the line without its end. -/
def paths (dir : List Char) (lines : List (List Char)) : List (List Char) :=
  lines.map fun l => dir ++ l

/-- pipeline/e2e_batch_1km_20260130.py 128-135 and pipeline/batch_parallel_raw_to_DLP_1kHz_to_50m_20260130.py 61-68: paths with `#` are
left out. -/
def uncommented (dir : List Char) (lines : List (List Char)) : List (List Char) :=
  (paths dir lines).filter fun p => !p.contains '#'

/-- `rsr_file[-1] == '2' and not with16`: pipeline/e2e_batch.py 26. -/
def skip16 (with16 : Bool) (p : List Char) : Bool := p.getLast? == some '2' && !with16

/-- `rsr_file[-1] == '5'`: pipeline/dlp_batch.py 23. -/
def skip5 (p : List Char) : Bool := p.getLast? == some '5'

/-- The rest of a batch after a recording was begun. -/
def Run.after (n : Nat) (new : List (Nat × List Char)) (r : Run) : Run := ⟨n :: r.begun, new ++ r.reports, r.stop⟩

/-- The loop from recording `n` on: pipeline/e2e_batch.py 20-106, pipeline/e2e_batch_1km.py 60-178, pipeline/e2e_batch_500m.py 61-146,
pipeline/e2e_batch_postUSO_1km.py 61-148, pipeline/e2e_batch_1km_20260130.py 141-290.  The handler writes path and number. -/
def loop (skip : List Char → Bool) (work : List Char → Ending) : Nat → List (List Char) → Run
  | _, [] => ⟨[], [], .finished⟩
  | n, p :: ps =>
    if skip p then loop skip work (n + 1) ps
    else match work p with
      | .fine => (loop skip work (n + 1) ps).after n []
      | .fails => (loop skip work (n + 1) ps).after n [(n, p)]
      | .interrupted => ⟨[n], [], .exits⟩

/-- The loop of pipeline/dlp_batch.py 18-64.  The handler (62-63) uses `dir`, which is here the builtin function: adding it to a text is a
`TypeError`, raised in the handler, which nothing catches. -/
def loopDlp (work : List Char → Ending) : Nat → List (List Char) → Run
  | _, [] => ⟨[], [], .finished⟩
  | n, p :: ps =>
    if skip5 p then loopDlp work (n + 1) ps
    else match work p with
      | .fine => (loopDlp work (n + 1) ps).after n []
      | .fails => ⟨[n], [], .raises⟩
      | .interrupted => ⟨[n], [], .exits⟩

/-! ## Side by side -/

/-- Opening a file for writing and writing it: a file of the name is replaced. -/
def writeFile (files : List (List Char × List Char)) (name text : List Char) : List (List Char × List Char) :=
  files.filter (fun f => f.1 ≠ name) ++ [(name, text)]

/-- The name of the report of a failure: pipeline/batch_parallel_raw_to_DLP_1kHz_to_50m_20260130.py 153-154 and
pipeline/batch_parallel_CSVtoTAU_template-20260130a.py 286-287.  `stamp` is `time.strftime("_%Y%m%d-%H%M%S")` as a function of the second. -/
def reportName (program : List Char) (stamp : Nat → List Char) (second : Nat) : List Char := program ++ stamp second ++ ".err".toList

/-- One report, of a failure in a second: lines 154-160 and 289-294 of the same files.  Reports are written whole, one after the other. -/
def writeReport (program : List Char) (stamp : Nat → List Char) (files : List (List Char × List Char)) (r : Nat × List Char) :
    List (List Char × List Char) :=
  writeFile files (reportName program stamp r.1) r.2

/-- The files after reports in the order in which they were written. -/
def reportFiles (program : List Char) (stamp : Nat → List Char) (rs : List (Nat × List Char)) : List (List Char × List Char) :=
  rs.foldl (writeReport program stamp) []

/-- The processes of a pool append to one log: pipeline/batch_parallel_raw_to_DLP_1kHz_to_50m_20260130.py 116-118, 127-141 and 162-175.  `Appends ls log`:
tasks that append the texts `ls` may leave the log `log`.  A text written between `open(logfile,"a")` and `close()` is appended as a whole;
any task may be the next (the bound of five processes is not modelled). -/
inductive Appends {α : Type} : List (List α) → List α → Prop
  | done {ls : List (List α)} : (∀ l ∈ ls, l = []) → Appends ls []
  | next {before after : List (List α)} {l : List α} {a : α} {log : List α} :
      Appends (before ++ l :: after) log → Appends (before ++ (a :: l) :: after) (a :: log)

/-- What one task appends for one resolution: the profile of ingress, the profile of egress, or both. -/
structure Logged where
  desired : ℚ
  ingress : Option ℚ
  egress : Option ℚ
  deriving DecidableEq, Repr

/-- `dr_km_returned` after a resolution: the spacing of the egress if there is one, or of the ingress, or what it was before;
pipeline/batch_parallel_raw_to_DLP_1kHz_to_50m_20260130.py 131, 138. -/
def returned (before : Option ℚ) (l : Logged) : Option ℚ :=
  match l.egress, l.ingress with
  | some e, _ => some e
  | none, some i => some i
  | none, none => before

/-- The loop over the spacings: pipeline/batch_parallel_raw_to_DLP_1kHz_to_50m_20260130.py 120-145.  `create` gives the spacings of the profiles
made for a desired one.  The second component tells whether the loop ended without an exception: `dr_km_returned` is unbound when
no profile was ever made. -/
def spacings (create : ℚ → Option ℚ × Option ℚ) : Option ℚ → List ℚ → List Logged × Bool
  | _, [] => ([], true)
  | before, d :: ds =>
    match returned before ⟨d, (create d).1, (create d).2⟩ with
    | none => ([⟨d, (create d).1, (create d).2⟩], false)
    | some r =>
      if r ≠ d then ([⟨d, (create d).1, (create d).2⟩], true)
      else (⟨d, (create d).1, (create d).2⟩ :: (spacings create (some r) ds).1, (spacings create (some r) ds).2)

/-! ## Before and after the tasks -/

/-- Clearing the directory: pipeline/batch_parallel_CSVtoTAU_template-20260130a.py 299-314.  The tables left from an earlier run are moved to
`old/`; if there is no `old/`, the first `mv` fails and the handler takes that for a directory without tables. -/
def clear {α : Type} (hasOld : Bool) (stale : List α) : List α := if hasOld then [] else stale

/-- The tables in the directory after the tasks.  A task that fails writes a report and no table (`none`):
pipeline/batch_parallel_CSVtoTAU_template-20260130a.py 237-294.  New files have new names, so that tables from before stay. -/
def tables {α : Type} (stale : List α) (tasks : List (Option α)) : List α := stale ++ tasks.filterMap id

/-- `main()`: pipeline/batch_parallel_CSVtoTAU_template-20260130a.py 297-335, up to the merged table, with the switch `clean` of line 87. -/
def runTasks {α : Type} (clean hasOld : Bool) (stale : List (List (ℚ × α))) (tasks : List (Option (List (ℚ × α)))) :
    Py (List (ℚ × α)) :=
  mergeTab (tables (if clean then clear hasOld stale else stale) tasks)

/-! ## The names of the pieces -/

/-- What a task does with the directory: it looks at the names (rss_ringoccs/tools/write_output_files.py 174-197), and later writes its table
and label (251-255). -/
inductive Event
  | looks (task : Nat)
  | writes (task : Nat)
  deriving DecidableEq, Repr

/-- `f'.{ind+1:04d}'`: pipeline/batch_parallel_CSVtoTAU_template-20260130a.py 282. -/
def suffix (task : Nat) : List Char := '.' :: Verif.Out.zfillInt 4 (task + 1)

/-- The directory and the titles that the tasks have chosen. -/
structure Pieces where
  files : List (List Char)
  titles : List (Nat × List Char)
  deriving DecidableEq, Repr

/-- One event.  The suffix is put behind the name of table and label (rss_ringoccs/tools/pds3_tau_series.py 905-913). -/
def event (filestr filtyp day : List Char) (s : Pieces) : Event → Py Pieces
  | .looks i => do
    let t ← Verif.Out.title filestr filtyp day (some s.files)
    .ok { s with titles := (i, t) :: s.titles }
  | .writes i =>
    .ok { s with files := s.files ++ ((s.titles.lookup i).toList.flatMap fun t =>
      [Verif.Out.written t ".TAB".toList ++ suffix i, Verif.Out.written t ".LBL".toList ++ suffix i]) }

/-- Events in the order of time, in a directory that exists. -/
def play (filestr filtyp day : List Char) (files : List (List Char)) (es : List Event) : Py Pieces :=
  es.foldlM (event filestr filtyp day) ⟨files, []⟩

end Verif.Runs
