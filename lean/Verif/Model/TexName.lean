import Verif.Model.RevInfo

/-!
# What the summary document takes from the name of its file: rss_ringoccs/tools/sys_tools.py 94-120, 463-475 and rss_ringoccs/tools/create_summary_doc_v5.py 1463-1470

Simplifications: texts are lists of characters, `os.sep` is `/`; the title of the file is that of `construct_filepath` (`Verif.Model.OutName`), given in parts.
-/
namespace Verif.Tex
open Verif.Rsr Verif.Pds Verif.Rev

/-- create_summary_doc_v5.py 1463-1467: the letters of the direction, `C` for chords and `P` for occultations with a part behind the planet. -/
def pd1 (dir : Char) (chord per : Bool) : List Char :=
  let p := [dir]
  let p := if chord then 'C' :: p else p
  if per then 'P' :: p else p

/-- create_summary_doc_v5.py 1470: the file of the figures. -/
def outfig (outdir rev p title : List Char) : List Char := outdir ++ "Rev".toList ++ rev ++ p ++ ['_'] ++ title ++ ".pdf".toList

/-- The macros of the document that come from the name of the file. -/
structure Macros where
  rev : List Char
  occ : List Char
  doy : List Char
  dsn : List Char
  year : List Char
  band : List Char
  deriving DecidableEq, Repr

/-- Element `i` of a list, an `IndexError` when there is none. -/
def part (l : List (List Char)) (i : Nat) : Py (List Char) :=
  match l[i]? with
  | some x => .ok x
  | none => .error .index

/-- sys_tools.py 107-114: the parts of the name. -/
def macros (pdffil : List Char) : Py Macros := do
  let var := splitOn '_' ((splitOn '/' pdffil).getLastD [])
  let v0 ← part var 0
  let doy ← part var 3
  let v4 ← part var 4
  let year ← part var 2
  pure ⟨slice 3 6 v0, v0.drop 6, doy, v4.drop 1, year, slice 0 3 v4⟩

/-- sys_tools.py 148-151: the first line of the title. -/
def titleLine (m : Macros) : List Char :=
  ['R', 'S', 'S'] ++ ['_'] ++ m.year ++ ['_'] ++ m.doy ++ ['_'] ++ m.band ++ ['_'] ++ m.occ

/-- sys_tools.py 463-470: the directory to which the document is moved. -/
def texOut (pdffil : List Char) : List Char :=
  let texvar := splitOn '/' pdffil
  if texvar.length > 1 then
    texvar.headD [] ++ ['/'] ++ ((texvar.tail).dropLast.map (· ++ ['/'])).flatten
  else "$PWD".toList

end Verif.Tex
