import Verif.Model.RevInfo

/-!
# Choosing the data file and the kernel of an event: rss_ringoccs/tools/rss_ringoccs_local_tools.py 1787-1868, 2007-2032, 2114-2137, 2618-2716

Simplifications: texts are lists of characters, `upper` is that of ASCII; fetching files from the web and printing are left out; the contents of the
tables are parameters, as lists of lines.
-/
namespace Verif.Pick
open Verif.Rsr Verif.Out Verif.Pds Verif.Rev

/-- What `get_CORSS_8001_TABfiles` returns: a text when one path fits, otherwise a list. -/
inductive Found where
  | one (p : List Char)
  | many (l : List (List Char))
  deriving DecidableEq, Repr

/-- `len`. -/
def Found.len : Found → Nat
  | .one p => p.length
  | .many l => l.length

/-- rss_ringoccs/tools/rss_ringoccs_local_tools.py 1797-1805: stations that are not in the table. -/
def standIn (rev dsn : List Char) : List Char :=
  let dsn := if dsn = "K47".toList ∧ rev = "Rev064".toList then "X43".toList else dsn
  let dsn := if dsn = "K34".toList ∧ rev = "Rev064".toList then "X43".toList else dsn
  if dsn = "K47".toList ∧ rev = "Rev081".toList then "X43".toList else dsn

/-- rss_ringoccs/tools/rss_ringoccs_local_tools.py 1815-1819: the line is taken. -/
def fits (rev dsnDir : List Char) (p : List Char) : Bool := decide ('#' ∉ p) && decide (rev <:+: p) && decide (dsnDir <:+: p)

/-- rss_ringoccs/tools/rss_ringoccs_local_tools.py 1787-1827: `get_CORSS_8001_TABfiles` with all three of `Rev`, `DSN` and `direction` given. -/
def corssFiles (table : List (List Char)) (rev dsn : List Char) (dir : Char) : Found :=
  match table.filter (fits rev (standIn rev dsn ++ ['_', dir])) with
  | [p] => .one p
  | l => .many l

/-- rss_ringoccs/tools/rss_ringoccs_local_tools.py 1853-1868: `get_CORSS_8001_TAUfile`; `none` is `None`. -/
def corssTau (table : List (List Char)) (data : List Char) (q : Info) : Py (Option (List Char)) := do
  let b ← item 1 q.band
  let d ← item 1 q.profDir
  match corssFiles table ("Rev".toList ++ q.revNum) (b :: q.dsn.drop 4) d with
  | .one p => if p = [] then pure none else pure (some (data ++ p))
  | .many [] => pure none
  | .many (p :: _) => pure (some (data ++ p))

/-- `s.upper()`. -/
def upper (s : List Char) : List Char := s.map upperC

/-- rss_ringoccs/tools/rss_ringoccs_local_tools.py 2679-2680 (2688-2689, 2702-2703): the first file that fits. -/
def search (files : List (List Char)) (string dsn : List Char) : Option (List Char) :=
  files.find? fun f => decide (upper string <:+: upper f) && decide (upper dsn <:+: upper f)

/-- rss_ringoccs/tools/rss_ringoccs_local_tools.py 2663-2668: the files of 1 kHz; an empty line is an `IndexError`. -/
def oneKhz (files : List (List Char)) : Py (List (List Char)) :=
  if [] ∈ files then .error .index else .ok (files.filter fun f => f.getLast? = some '1')

/-- rss_ringoccs/tools/rss_ringoccs_local_tools.py 2678 (2687, 2697): what is searched for. -/
def eventString (dir : Char) (event : List Char) : List Char := dir :: slice 4 8 event ++ slice 9 12 event

/-- rss_ringoccs/tools/rss_ringoccs_local_tools.py 2707-2716: the end of `pick_RSR_file`. -/
def special (string dsn : List Char) : Option (List Char) :=
  if string = "E2008102".toList ∧ dsn = "K47".toList then
    some "co-s-rss-1-sroc7-v10/cors_0225/sroc7_102/rsr/s39sroi2008102_0705nnnk47rd.2a2".toList
  else if string = "E2008232".toList ∧ dsn = "K47".toList then
    some "co-s-rss-1-sroc8-v10/cors_0249/sroc8_232/rsr/s43sroi2008232_0517nnnk47rd.2a2".toList
  else none

/-- The tables: `rsr_16kHz_files_before_USO_failure.txt`, `rsr_all_files_before_USO_failure.txt`, `CORSS_8001_TAU_filepaths_all.txt`. -/
structure Tables where
  khz16 : List (List Char)
  all : List (List Char)
  corss : List (List Char)

/-- rss_ringoccs/tools/rss_ringoccs_local_tools.py 2686: the egress of a chord occultation; a path without `CE` is a `ValueError`. -/
def isChord (dir : Char) (p : List Char) : Py Bool :=
  if dir = 'E' then do
    let i ← index "CE".toList p
    pure (decide (0 < i))
  else pure false

/-- rss_ringoccs/tools/rss_ringoccs_local_tools.py 2657-2668: the list of files. -/
def rsrFiles (t : Tables) (k16 : Bool) : Py (List (List Char)) := if k16 then pure t.khz16 else oneKhz t.all

/-- rss_ringoccs/tools/rss_ringoccs_local_tools.py 2685-2716: after the first search; `string` and `event` as far as they are set. -/
def pickLater (t : Tables) (k16 : Bool) (dir : Char) (dsn : List Char) (files : List (List Char)) (p event : List Char) : Py (Option (List Char)) := do
  let chord ← isChord dir p
  let string := if chord then eventString 'I' event else eventString dir event
  match (if chord then search files string dsn else none) with
  | some f => pure (some f)
  | none =>
    let string := if k16 then string else eventString dir event
    match (if k16 then none else search t.khz16 string dsn) with
    | some f => pure (some f)
    | none => pure (special string dsn)

/-- rss_ringoccs/tools/rss_ringoccs_local_tools.py 2651-2716: `pick_RSR_file`.  `os.path.basename` of a list is a `TypeError`, `index` of an empty list
a `ValueError`, `string` without a path is not set. -/
def pickRsr (t : Tables) (k16 : Bool) (rev : List Char) (dir : Char) (dsn : List Char) : Py (Option (List Char)) := do
  let files ← rsrFiles t k16
  match corssFiles t.corss rev dsn dir with
  | .many (_ :: _) => .error .type
  | .many [] => if dir = 'E' then .error .value else .error .unboundLocal
  | .one p =>
    if p = [] then (if dir = 'E' then .error .value else .error .unboundLocal)
    else
      match search files (eventString dir (basename p)) dsn with
      | some f => pure (some f)
      | none => pickLater t k16 dir dsn files p (basename p)

/-! ### Kernels -/

/-- rss_ringoccs/tools/rss_ringoccs_local_tools.py 2635-2648: one line of the list of kernels; any exception goes on with the next line. -/
def kernelOf (day : Nat) (line : List Char) : Option (List Char) :=
  let r : Py (Option (List Char)) := do
    let i ← index "SCPSE".toList line
    let s ← pyIntDigits (slice (i + 6) (i + 11) line)
    let e ← pyIntDigits (slice (i + 12) (i + 17) line)
    if s ≤ day ∧ day ≤ e then do
      let j ← index "$A/".toList line
      pure (some (slice (j + 3) (j + 32) line))
    else pure none
  match r with
  | .ok o => o
  | .error _ => none

/-- rss_ringoccs/tools/rss_ringoccs_local_tools.py 2618-2649: `pick_SC_kernel`. -/
def pickKernel (lines : List (List Char)) (path : List Char) : Py (List Char) := do
  let i ← index "_RSS_".toList path
  let frag := path.drop (i + 5)
  let day ← pyIntDigits (slice 2 4 frag ++ slice 5 8 frag)
  pure ("naif/CASSINI/kernels/spk/".toList ++ (lines.findSome? (kernelOf day)).getD "NO KERNEL FOUND".toList)

/-- `l[-k]`. -/
def fromEnd (k : Nat) (l : List (List Char)) : Py (List Char) :=
  if k ≤ l.length then .ok (l.getD (l.length - k) []) else .error .index

/-- `s[-1]`. -/
def lastChar (s : List Char) : Py Char :=
  match s.getLast? with
  | some c => .ok c
  | none => .error .index

/-- rss_ringoccs/tools/rss_ringoccs_local_tools.py 2007-2032: `get_rev_info_from_tau` without an RSR file; the `AssertionError` of another direction is
written as `systemExit`. -/
def revInfoFromTau (tau : List Char) : Py Info := do
  let b := basename tau
  let i ← index "RSS_".toList b
  let band ← item (i + 13) b
  let fields := splitOn '/' tau
  let f2 ← fromEnd 2 fields
  let d ← lastChar f2
  let f4 ← fromEnd 4 fields
  if d ≠ 'I' ∧ d ≠ 'E' then .error .systemExit
  else pure ⟨"\"UNKNOWN\"".toList, ['"', band, '"'], slice (i + 4) (i + 8) b, slice (i + 9) (i + 12) b, slice (i + 14) (i + 16) b, none, "\"BOTH\"".toList,
    (if d = 'E' then "\"EGRESS\"".toList else "\"INGRESS\"".toList), f4.drop 3, "\"Y\"".toList⟩

/-- rss_ringoccs/tools/rss_ringoccs_local_tools.py 1675-1677: `event_name_from_rev_info`. -/
def eventName (q : Info) : Py (List Char) := do
  let d ← item 1 q.profDir
  let b ← item 1 q.band
  pure ("RSS_".toList ++ q.revNum ++ d :: '_' :: b :: q.dsn)

/-- rss_ringoccs/tools/rss_ringoccs_local_tools.py 2124: `[0]`, of a text its first character. -/
def firstOf : Found → Py (List Char)
  | .one [] => .error .index
  | .one (c :: _) => .ok [c]
  | .many [] => .error .index
  | .many (p :: _) => .ok p

/-- rss_ringoccs/tools/rss_ringoccs_local_tools.py 2118-2128: the spacecraft kernel that `load_kernels_for_taufile` loads. -/
def kernelForTau (corss kernels : List (List Char)) (tau : List Char) : Py (List Char) := do
  let q ← revInfoFromTau tau
  let d ← item 1 q.profDir
  let p ← firstOf (corssFiles corss q.revNum q.dsn d)
  pickKernel kernels p

end Verif.Pick
