import Verif.Model.Version
import Verif.Model.Pds

/-!
# Files that are changed after they were written

Simplifications: texts are lists of characters, numbers rational; directories are created and files written without errors.  `num` gives
the number in the first column of a line, and `ex` tells which paths exist.
-/
namespace Verif.Out
open Verif.Rsr Verif.Pds

/-- Text as read by `open(path)` of Python: `'\r\n'` and `'\r'` become `'\n'`. -/
def universal : List Char → List Char
  | [] => []
  | '\r' :: '\n' :: cs => '\n' :: universal cs
  | '\r' :: cs => '\n' :: universal cs
  | c :: cs => c :: universal cs

/-- `f.readlines()`: lines with their `'\n'`. -/
def readlines : List Char → List (List Char)
  | [] => []
  | c :: cs => if c = '\n' then [c] :: readlines cs else
    match readlines cs with
    | [] => [[c]]
    | l :: ls => (c :: l) :: ls

/-- Text as written by `open(path, 'w', newline='\r\n')`. -/
def crlf : List Char → List Char
  | [] => []
  | '\n' :: cs => '\r' :: '\n' :: crlf cs
  | c :: cs => c :: crlf cs

/-- The lines that `np.loadtxt` does not skip: something other than spaces stands before a `#`. -/
def isRow (line : List Char) : Bool := (line.takeWhile (· ≠ '#')).any fun c => !(c = ' ' || c = '\n' || c = '\t' || c = '\r')

/-- rss_ringoccs/tools/rss_ringoccs_local_tools.py 3718-3726: the lines of the trimmed file.  The numbers of the rows of `np.loadtxt`
are used as numbers of lines. -/
def trimLines (num : List Char → ℚ) (lines : List (List Char)) (lo hi : ℚ) : List (List Char) :=
  let rkm := (lines.filter isRow).map num
  ((List.range rkm.length).filter fun i => decide (lo ≤ rkm.getD i 0) && decide (rkm.getD i 0 ≤ hi)).map fun i => lines.getD i []

/-- `s.index('Rev')` and what follows: rss_ringoccs/tools/rss_ringoccs_local_tools.py 3708. -/
def fromRev : List Char → Option (List Char)
  | [] => none
  | c :: cs => if "Rev".toList.isPrefixOf (c :: cs) then some (c :: cs) else fromRev cs

/-- The path of the trimmed file: rss_ringoccs/tools/rss_ringoccs_local_tools.py 3706-3711; `out` is `path_to_output`. -/
def trimPath (out dirname basename : List Char) (lo hi : ℚ) : Py (List Char) :=
  match fromRev dirname with
  | none => .error .value
  | some d => .ok (out ++ d ++ '/' :: insertM (zfillInt 0 (pyInt lo) ++ '-' :: zfillInt 0 (pyInt hi) ++ ['_']) basename)

/-- `s.replace('TAB', 'LBL')`: rss_ringoccs/tools/rss_ringoccs_local_tools.py 3729-3730. -/
def toLbl : List Char → List Char
  | 'T' :: 'A' :: 'B' :: cs => 'L' :: 'B' :: 'L' :: toLbl cs
  | c :: cs => c :: toLbl cs
  | [] => []

/-- The files: what stands at a path, if anything. -/
abbrev Files := List Char → Option (List Char)

/-- A file is written. -/
def Files.put (fs : Files) (p : List Char) (s : List Char) : Files := fun q => if q = p then some s else fs q

/-- `trim_dlp_file`: rss_ringoccs/tools/rss_ringoccs_local_tools.py 3705-3737; the path of the trimmed file and the files afterwards.
A missing file is the error `.key` here. -/
def trimDlp (num : List Char → ℚ) (fs : Files) (out dirname basename : List Char) (lo hi : ℚ) (overwrite write : Bool) :
    Py (List Char × Files) := do
  let file := dirname ++ '/' :: basename
  let path ← trimPath out dirname basename lo hi
  if write && ((fs path).isNone || overwrite) then
    match fs file with
    | none => .error .key
    | some s =>
      let fs1 := fs.put path (trimLines num (readlines (universal s)) lo hi).flatten
      match fs1 (toLbl file) with
      | none => .error .key
      | some l => .ok (path, fs1.put (toLbl path) l)
  else .ok (path, fs)

/-- `line[a:b] = s` for a list of characters. -/
def setSlice (a b : Nat) (s line : List Char) : List Char := line.take a ++ s ++ line.drop b

/-- One line of `update_taufile_radius_corrections`: rss_ringoccs/tools/rss_ringoccs_local_tools.py 3786-3797. -/
def updateLine (pole traj : Option ℚ) (line : List Char) : List Char :=
  let l := match pole with | none => line | some x => setSlice 16 25 (pad 9 (fixed 6 x)) line
  match traj with | none => l | some x => setSlice 27 36 (pad 9 (fixed 6 x)) l

/-- The end of `update_taufile_radius_corrections`. -/
inductive Updated where
  | kept
  | written (text : List Char)
  | unboundLocal
  | assertion
  | index
  deriving DecidableEq, Repr

/-- `update_taufile_radius_corrections`: rss_ringoccs/tools/rss_ringoccs_local_tools.py 3756-3803, for the file with text `s`; `old` are
the numbers of the columns 1 and 2 as read by `np.loadtxt`, `pole` and `traj` what `radius_correction_pole` and
`radius_correction_trajectory` give, `none` if not asked for.  Lines 3777 and 3780 both test the length of `dr_pole`. -/
def updateTau (s : List Char) (old : List (ℚ × ℚ)) (pole traj : Option (List ℚ)) (onlyIfZero : Bool) : Updated :=
  let contents := readlines (universal s)
  if onlyIfZero && old.any (fun p => decide (p.1 ≠ 0) || decide (p.2 ≠ 0)) then .kept else
  if pole.any (fun d => d.length ≠ contents.length) then .assertion else
  if traj.isSome && pole.isNone then .unboundLocal else
  if traj.any (fun d => d.length < contents.length) then .index else
  .written (crlf (contents.mapIdx fun i l => updateLine (pole.map (·.getD i 0)) (traj.map (·.getD i 0)) l).flatten)

end Verif.Out
