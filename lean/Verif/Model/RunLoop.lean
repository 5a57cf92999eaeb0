import Mathlib.Data.List.Infix
import Mathlib.Data.Rat.Defs
import Mathlib.Algebra.Order.Ring.Rat

/-!
# The loop over the stations and directories

rss_ringoccs/tools/rss_ringoccs_local_tools.py 3252-3589.  Names of files and directories are texts; `glob` is a parameter.  The files GEO and CAL of a
directory are found.  The four inner
loops (kinds of the phase, windows, resolutions, parts of the range) are a list of jobs; a job is done or fails.
-/
namespace Verif.Loop

/-- rss_ringoccs/tools/rss_ringoccs_local_tools.py 3279, 3355: the pattern for the resolution, as it was asked for or `DLP_*???M`. -/
inductive Pat | wanted | any
  deriving DecidableEq, Repr

/-- rss_ringoccs/tools/rss_ringoccs_local_tools.py 3336-3362: what `glob` finds. -/
structure Files where
  /-- `glob.glob(this_dir + '/*' + dlp_res + search_string)` -/
  glob : Pat → List Char → List (List Char)
  /-- `glob.glob(this_dir + DLP_glob_all)` -/
  globAll : List Char → List (List Char)

/-- A piece of work for a directory and a file. -/
structure Done where
  dir : List Char
  file : List Char
  job : Nat
  deriving DecidableEq, Repr

/-- How a part of the loops ends: it goes on, or `runloop` returns. -/
inductive Flow (α : Type)
  | go (a : α) (out : List Done)
  | stop (out : List Done)
  deriving DecidableEq, Repr

/-- rss_ringoccs/tools/rss_ringoccs_local_tools.py 3399-3490: the jobs for one file, up to the first that fails; then `runloop` returns what is complete. -/
def jobs (ok : Done → Bool) (dir file : List Char) (out : List Done) : List Nat → Flow Unit
  | [] => .go () out
  | j :: js => if ok ⟨dir, file, j⟩ then jobs ok dir file (out ++ [⟨dir, file, j⟩]) js else .stop out

/-- rss_ringoccs/tools/rss_ringoccs_local_tools.py 3330-3500: the directories for one station.  `string` is first the name of the station and
after a directory the name of its file; `res` is the pattern. -/
def overDirs (F : Files) (ok : Done → Bool) (js : List Nat) : List Char → Pat → List Done → List (List Char) → Flow Pat
  | _, res, out, [] => .go res out
  | string, res, out, d :: ds =>
    if string <:+: d then
      match F.glob res d with
      | f :: _ =>
        match jobs ok d f out js with
        | .go _ out => overDirs F ok js f res out ds
        | .stop out => .stop out
      | [] =>
        match F.globAll d with
        | f :: _ =>
          match jobs ok d f out js with
          | .go _ out => overDirs F ok js f .any out ds
          | .stop out => .stop out
        | [] => .stop out
    else overDirs F ok js string res out ds

/-- rss_ringoccs/tools/rss_ringoccs_local_tools.py 3318-3329: the stations of a run. -/
def overStations (F : Files) (ok : Done → Bool) (js : List Nat) (dirs : List (List Char)) : Pat → List Done → List (List Char) → Flow Pat
  | res, out, [] => .go res out
  | res, out, s :: ss =>
    match overDirs F ok js s res out dirs with
    | .go res out => overStations F ok js dirs res out ss
    | .stop out => .stop out

/-- rss_ringoccs/tools/rss_ringoccs_local_tools.py 3261-3525: the features and the runs; each has its stations and directories, and its own pattern. -/
def overRuns (F : Files) (ok : Done → Bool) (js : List Nat) (out : List Done) : List (List (List Char) × List (List Char)) → List Done
  | [] => out
  | (stations, dirs) :: rs =>
    match overStations F ok js dirs .wanted out stations with
    | .go _ out => overRuns F ok js out rs
    | .stop out => out

/-- rss_ringoccs/tools/rss_ringoccs_local_tools.py 3376: whether it is said that the file does not span the range. -/
def warned (rminDlp rmaxDlp : ℚ) (range : ℚ × ℚ) : Bool := decide (range.1 < rminDlp) || decide (rmaxDlp < range.1)

/-- Python's `text.startswith(p)`. -/
def starts (p t : List Char) : Bool := p.isPrefixOf t

/-- rss_ringoccs/tools/rss_ringoccs_local_tools.py 3551-3556, and 3600-3605: the loop over the lines of the label from line `i` on. -/
def scan (i : Nat) (istart : Option Nat) : List (List Char) → Option Nat × Option Nat
  | [] => (istart, none)
  | l :: ls =>
    let istart := if starts "rsr_inst history:".toList l then some i else istart
    if starts ['"'] l then (istart, some i) else scan (i + 1) istart ls

/-- rss_ringoccs/tools/rss_ringoccs_local_tools.py 3557, 3606: `contents[istart:istop]`; none is an `UnboundLocalError`. -/
def priorHistory (contents : List (List Char)) : Option (List (List Char)) :=
  match scan 0 none contents with
  | (some a, some b) => some ((contents.take b).drop a)
  | _ => none

/-- The keys of a history that are set. -/
inductive Key | positional | keyword | runDate | source | user | info
  deriving DecidableEq, Repr

/-- Two objects with a history each: `hist` gives the value of a key in one of the dictionaries, `tau` and `dlp` which one the objects have. -/
structure Hists (V : Type) where
  hist : Nat → Key → V
  tau : Nat
  dlp : Nat

/-- Assignment to a key of the dictionary of `tau_inst`. -/
def Hists.set {V : Type} (h : Hists V) (k : Key) (v : V) : Hists V :=
  { h with hist := fun i k' => if i = h.tau ∧ k' = k then v else h.hist i k' }

/-- rss_ringoccs/tools/rss_ringoccs_local_tools.py 3562-3588: the dictionary of the DLP object becomes that of the optical depth; `login` is
whether `os.getlogin()` succeeds, otherwise what follows is left out. -/
def setTauHistory {V : Type} (login : Bool) (new : Key → V) (h : Hists V) : Hists V :=
  let h := { h with tau := h.dlp }
  let h := (h.set .positional (new .positional)).set .keyword (new .keyword)
  if login then (((h.set .runDate (new .runDate)).set .source (new .source)).set .user (new .user)).set .info (new .info) else h

end Verif.Loop
