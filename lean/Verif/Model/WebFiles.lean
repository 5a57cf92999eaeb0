import Verif.Model.LabelText
import Verif.Model.ResName
import Verif.Model.Parse

/-!
# Files from the web, the type of the reconstruction in a label, and names of summaries

rss_ringoccs/tools/rss_ringoccs_local_tools.py.

Simplifications: a path is a list of characters; `web` tells what `curl` writes for an address, which is the file, or what the server sends
instead of it, or nothing when there is no answer; the shell takes paths as they are.  Case is that of ASCII.
-/
namespace Verif.Web
open Verif

/-- What is stored at the paths. -/
abbrev Store (α : Type) := List Char → Option α

/-- rss_ringoccs/tools/rss_ringoccs_local_tools.py 1917-1934: one file of `get_files_from_web`; what is stored afterwards.  `curl` without
`-f` writes whatever the server sends. -/
def fetch {α : Type} (web : List Char → Option α) (dir url : List Char) (force : Bool) (s : Store α) (file : List Char) : Store α :=
  if !force && (s (dir ++ file)).isSome then s
  else match web (url ++ file) with
    | some c => fun p => if p = dir ++ file then some c else s p
    | none => s

/-- rss_ringoccs/tools/rss_ringoccs_local_tools.py 1909-1935: `get_files_from_web`; the list returned, and what is stored afterwards. -/
def getFiles {α : Type} (web : List Char → Option α) (dir url : List Char) (force : Bool) (s : Store α) (files : List (List Char)) :
    List (List Char) × Store α :=
  (files.map (dir ++ ·), files.foldl (fetch web dir url force) s)

/-- The rest of Python's `str.replace` of `p` (not empty) by `r`, with `k` characters still to be left out. -/
def replaceFrom (p r : List Char) : Nat → List Char → List Char
  | _, [] => []
  | 0, c :: cs => if p.isPrefixOf (c :: cs) then r ++ replaceFrom p r (p.length - 1) cs else c :: replaceFrom p r 0 cs
  | k + 1, _ :: cs => replaceFrom p r k cs

/-- Python's `s.replace(p, r)` for a `p` that is not empty. -/
def replaceAll (p r s : List Char) : List Char := replaceFrom p r 0 s

/-- Python's `s.strip()`. -/
def strip (s : List Char) : List Char := ((s.dropWhile isSpaceC).reverse.dropWhile isSpaceC).reverse

/-- rss_ringoccs/tools/rss_ringoccs_local_tools.py 1996-2006: `get_psitype` of the lines of a label. -/
def getPsitype : List (List Char) → List Char
  | [] => []
  | l :: ls =>
    if "psitype: ".toList <:+: l then (replaceAll [','] [] (replaceAll "psitype: ".toList [] (strip l))).map lowerC else getPsitype ls

/-- Python's `s.index(p)` and what follows it; none is a `ValueError`. -/
def after (p : List Char) : List Char → Option (List Char)
  | [] => if p = [] then some [] else none
  | c :: cs => if p.isPrefixOf (c :: cs) then some ((c :: cs).drop p.length) else after p cs

/-- rss_ringoccs/tools/rss_ringoccs_local_tools.py 189-201: the new name in `add_inversion_range_psitype_to_summary`; a range is of natural
numbers. -/
def summaryName (pdf tau : List Char) (range : Nat × Nat) (psi : List Char) (addR addP : Bool) : Option (List Char) :=
  match (if addR then (after "TAU_".toList tau).map fun rest =>
      replaceAll "SUMMARY_".toList ("SUMMARY_".toList ++ rest.take 7 ++ Out.zfillInt 6 range.1 ++ '-' :: Out.zfillInt 6 range.2 ++ ['_']) pdf
    else some pdf) with
  | none => none
  | some new => some (if addP then replaceAll ".pdf".toList ('_' :: psi.map lowerC ++ ".pdf".toList) new else new)

/-- What `rm` does with its arguments: options are the letters after the first `-` of an argument; an unknown option removes nothing. -/
def rm {α : Type} (opt path : List Char) (s : Store α) : Store α :=
  if opt.drop 1 |>.all (fun c => c = 'f' ∨ c = 'i' ∨ c = 'r' ∨ c = 'R' ∨ c = 'v' ∨ c = 'd' ∨ c = 'I') then fun p => if p = path then none else s p else s

/-- rss_ringoccs/tools/rss_ringoccs_local_tools.py 203-216: the copy, and with `replace` the removal by `rm '-f '`. -/
def renameSummary {α : Type} (s : Store α) (pdf tau : List Char) (range : Nat × Nat) (psi : List Char) (addR addP replace : Bool) :
    Option (List Char × Store α) :=
  if addR || addP then
    (summaryName pdf tau range psi addR addP).map fun new =>
      let s1 : Store α := match s pdf with | none => s | some c => fun p => if p = new then some c else s p
      (new, if replace then rm "-f ".toList pdf s1 else s1)
  else some (pdf, s)

/-- rss_ringoccs/tools/rss_ringoccs_local_tools.py 2564, 2581 and 2584, 2615-2618: the curves that `particle_size_models` makes, as (index of
the refractive index, index of the greatest radius, index of the slope); `zip` with lists of two stops after two. -/
def curves (m a q : Nat) : List (Nat × Nat × Nat) :=
  (List.range (min m 2)).flatMap fun i => (List.range (min a 2)).flatMap fun j => (List.range q).map fun k => (i, j, k)

end Verif.Web
