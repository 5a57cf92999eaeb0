import Verif.Model.WebFiles
import Verif.Model.UranusOut

/-!
# Calls of the system, names with dates, and files of Voyager 1

Simplifications: the mode of a file is a natural number; a command line is understood only if it has no character with a special meaning for the
shell; the year has four digits; a range of radii is of natural numbers.
-/
namespace Verif.Sys
open Verif.Web

/-- rss_ringoccs/tools/sys_tools.py 85-92: the mode after `make_executable` (`0o444` is 292). -/
def executable (mode : Nat) : Nat := mode ||| ((mode &&& 292) >>> 2)

/-- rss_ringoccs/tools/sys_tools.py 56-59: the command line. -/
def command (script : List (List Char)) : List Char := script.foldl (fun s x => s ++ ' ' :: x) []

/-- A character without special meaning for the shell, other than the blank. -/
def plain (c : Char) : Bool := c.isAlphanum || c == '.' || c == '/' || c == '_' || c == '-' || c == '+' || c == ','

/-- The words of a command line, with the word begun. -/
def wordsFrom : List Char → List Char → List (List Char)
  | w, [] => if w = [] then [] else [w]
  | w, c :: cs => if c = ' ' then (if w = [] then wordsFrom [] cs else w :: wordsFrom [] cs) else wordsFrom (w ++ [c]) cs

/-- What the shell runs: the words, if it has only plain characters and blanks; what it does otherwise is not modelled (none). -/
def shell (s : List Char) : Option (List (List Char)) := if s.all (fun c => c == ' ' || plain c) then some (wordsFrom [] s) else none

/-- A time as `time.strftime` has it. -/
structure Time where
  year : Nat
  month : Nat
  day : Nat
  hour : Nat
  minute : Nat
  second : Nat
  deriving DecidableEq, Repr

/-- A digit. -/
def digit (n : Nat) : Char := Char.ofNat (48 + n)

/-- `%m`, `%d`, `%H`, `%M`, `%S`: two digits. -/
def two (n : Nat) : List Char := [digit (n / 10), digit (n % 10)]

/-- rss_ringoccs/tools/sys_tools.py 70-83: `date_string`; `%Y` has four digits. -/
def dateString (t : Time) : List Char :=
  [two (t.year / 100) ++ two (t.year % 100), two t.month, two t.day, two t.hour, two t.minute, two t.second].foldl (fun s x => s ++ x ++ ['_']) []

/-- The objects that a file can be written of. -/
inductive Inst where
  | geometry
  | correction
  | other
  deriving DecidableEq, Repr

/-- How `write_vgr1_saturn_output_files` ends: with a title, or with an exception. -/
inductive Vgr1 where
  | wrote (title : List Char)
  | index
  | value
  | attribute
  deriving DecidableEq, Repr

/-- rss_ringoccs/tools/write_vgr1_saturn_output_files.py 29-53 and 107-118, with the title of 56-105: whatever is not a geometry is compared with
`rss.diffrec.DiffractionCorrection`, which is an `AttributeError`, since the package has no part `diffrec`.  The name of the file is made as in the Uranus
pipeline (`UOut.title`) from other parts. -/
def vgr1 (inst : Inst) (band dsn day : List Char) (files : Option (List (List Char))) : Vgr1 :=
  match inst with
  | .geometry => match UOut.title ("VGR1_Saturn_".toList ++ band ++ dsn) "GEO".toList day files with
    | .ok t => .wrote t
    | .error .value => .value
    | .error _ => .index
  | _ => .attribute

/-- rss_ringoccs/tools/rss_ringoccs_local_tools.py 170-188: the new name of a table (`ext` is `.TAB`) or label (`.LBL`) in
`add_inversion_range_psitype`; none is an `UnboundLocalError`, because the new name is made from the old one only with the range. -/
def pieceName (ext file : List Char) (range : Nat × Nat) (psi : List Char) (addR addP : Bool) : Option (List Char) :=
  let new := if addR then some (replaceAll "M_".toList ("M_".toList ++ (Out.zfillInt 6 range.1 ++ '-' :: Out.zfillInt 6 range.2 ++ ['_'])) file) else none
  if addP then new.map (replaceAll ext ('_' :: psi.map lowerC ++ ext)) else new

end Verif.Sys
