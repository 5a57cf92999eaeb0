import Verif.Model.ResName

/-!
# Version numbers of merged files

Simplifications: a path has at least eight characters; `int` accepts digits only (`Model/OutName.lean`); `ex` tells which paths exist,
and does not change during the call.
-/
namespace Verif.Out
open Verif.Rsr

/-- The path with another version: rss_ringoccs/tools/rss_ringoccs_local_tools.py 3744-3745 and 3750-3751; `lenf` is the length of
the path given at first. -/
def nextName (lenf : Nat) (new : List Char) (version : Nat) : List Char :=
  new.take (lenf - 8) ++ zfillInt 4 version ++ new.drop (lenf - 4)

/-- The loop of `update_file_version`: rss_ringoccs/tools/rss_ringoccs_local_tools.py 3748-3751.  `none` after `fuel` tests: the loop
is still running. -/
def verLoop (ex : List Char → Bool) (lenf : Nat) : Nat → Nat → List Char → Option (List Char)
  | 0, _, _ => none
  | fuel + 1, v, new => if ex new then verLoop ex lenf fuel (v + 1) (nextName lenf new (v + 1)) else some new

/-- `update_file_version`: rss_ringoccs/tools/rss_ringoccs_local_tools.py 3739-3754. -/
def updateVersion (ex : List Char → Bool) (path : List Char) (fuel : Nat) : Py (Option (List Char)) := do
  let v ← pyIntDigits ((path.drop (path.length - 8)).take 4)
  .ok (verLoop ex path.length fuel v path)

/-- `s.replace('M_', 'M_' + ins)`. -/
def insertM (ins : List Char) : List Char → List Char
  | [] => []
  | [c] => [c]
  | c :: d :: cs => if c = 'M' ∧ d = '_' then 'M' :: '_' :: (ins ++ insertM ins cs) else c :: insertM ins (d :: cs)

/-- rss_ringoccs/tools/rss_ringoccs_local_tools.py 2295-2297: the inversion range in the name, if asked for. -/
def withRange (range : Option (Nat × Nat)) (name : List Char) : List Char :=
  match range with
  | none => name
  | some (lo, hi) => insertM (zfillInt 6 lo ++ '-' :: zfillInt 6 hi ++ ['_']) name

/-- What `merge_sorted_tabfiles` writes: the table that the label names (`^SERIES` and `PRODUCT_ID`), and the paths of the copies of
table and label. -/
structure Merged where
  pointer : List Char
  table : List Char
  label : List Char
  deriving DecidableEq, Repr

/-- rss_ringoccs/tools/rss_ringoccs_local_tools.py 2238-2241, 2256, 2295-2301 and 2318-2320, for `tmp2output`; `stem` is the name of
the merged table without `.TAB` and directory, `dir` the directory for the copies. -/
def mergedFiles (ex : List Char → Bool) (dir stem : List Char) (range : Option (Nat × Nat)) (fuel : Nat) : Py (Option Merged) := do
  let t ← updateVersion ex (dir ++ withRange range (stem ++ ".TAB".toList)) fuel
  let l ← updateVersion ex (dir ++ withRange range (stem ++ ".LBL".toList)) fuel
  .ok (do
    let t ← t
    let l ← l
    some ⟨stem ++ ".TAB".toList, t, l⟩)

end Verif.Out
