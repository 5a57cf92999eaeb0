import Verif.Model.RevInfo
import Verif.Model.DateRev

/-!
# Lookup of the signal-to-noise ratio and choice of kernels

Simplifications: a file is the list of its lines without line ends (`f.read().splitlines()`); `str.upper` is that of ASCII; `float` is a
parameter that gives a number or fails (`ValueError`); NaN is `none`.
-/
namespace Verif.Thr
open Verif.Rsr Verif.Out Verif.Pds

/-- The keyword in lines 408 and 409. -/
def sourceKey : List Char := "SOURCE_PRODUCT_ID".toList

/-- rss_ringoccs/tools/rss_ringoccs_local_tools.py 409: `line[35:-1]`. -/
def quoted (line : List Char) : List Char := (line.drop 35).dropLast

/-- rss_ringoccs/tools/rss_ringoccs_local_tools.py 406-413: the name of the RSR file in a CAL label. -/
def rsrName (lines : List (List Char)) : List Char :=
  match lines.find? fun l => decide (sourceKey <:+: l) with
  | none => "NOT FOUND".toList
  | some l => quoted l

/-- rss_ringoccs/tools/rss_ringoccs_local_tools.py 1902: the test of a line. -/
def matches_ (name line : List Char) : Bool := decide (name.map upperC <:+: line.map upperC)

/-- rss_ringoccs/tools/rss_ringoccs_local_tools.py 1903: the number after the first comma. -/
def number {α : Type} (num : List Char → Option α) (line : List Char) : Py α :=
  if ',' ∈ line then
    match num ((line.dropWhile fun c => decide (c ≠ ',')).drop 1) with
    | some v => .ok v
    | none => .error .value
  else .error .value

/-- rss_ringoccs/tools/rss_ringoccs_local_tools.py 1900-1907. -/
def snrLookup {α : Type} (num : List Char → Option α) (name : List Char) (lines : List (List Char)) : Py (Option α) :=
  match lines.find? (matches_ name) with
  | none => .ok none
  | some l => do
    let v ← number num l
    pure (some v)

/-- The four sets of kernels of lines 1940-1943. -/
inductive Kern where
  | base
  | rev123
  | rev125
  | rev133
  deriving DecidableEq, Repr

/-- rss_ringoccs/tools/rss_ringoccs_local_tools.py 1945-1952. -/
def kernelsOf (year doy : Int) : Kern :=
  if year = 2009 ∧ (doy = 359 ∨ doy = 360) then .rev123
  else if year = 2010 ∧ doy = 26 then .rev125
  else if year ≥ 2010 ∨ (year = 2010 ∧ doy ≥ 169) then .rev133
  else .base

end Verif.Thr
