import Verif.Model.Pick

/-!
# The tabulated signal-to-noise ratio of a file, and the kernels of all events: rss_ringoccs/tools/rss_ringoccs_local_tools.py 1763-1778, 1870-1888

Simplifications: as in `Verif.Model.Pick`; `flt` is Python's `float` of a text, `none` for a `ValueError`.
-/
namespace Verif.Pick
open Verif.Rsr Verif.Out Verif.Pds Verif.Rev

/-- rss_ringoccs/tools/rss_ringoccs_local_tools.py 1882-1884: the number in the row, after its first comma. -/
def rowValue {R : Type} (flt : List Char → Option R) (line : List Char) : Py R := do
  let i ← index [','] line
  match flt (line.drop (i + 1)) with
  | some x => pure x
  | none => .error .value

/-- rss_ringoccs/tools/rss_ringoccs_local_tools.py 1870-1888: `get_dBHz`; `lines` is the file of the ratios.  The argument `_16kHz` is not used (line 1876 passes
`True`).  `None in line` is a `TypeError`. -/
def dbhz {R : Type} (flt : List Char → Option R) (nan : R) (t : Tables) (lines : List (List Char)) (_k16 : Bool) (rev : List Char) (dir : Char) (dsn : List Char) :
    Py R := do
  match (← pickRsr t true rev dir dsn) with
  | none => if lines = [] then pure nan else .error .type
  | some f =>
    match lines.find? fun l => decide (f <:+: l) with
    | none => pure nan
    | some l => rowValue flt l

/-- rss_ringoccs/tools/rss_ringoccs_local_tools.py 1771-1775: the kernel in one line; an exception goes on with the next line. -/
def scKernel (line : List Char) : Option (List Char) :=
  let r : Py (List Char) := do
    let _ ← index "SCPSE".toList line
    let j ← index "$A/".toList line
    pure (slice (j + 3) (j + 32) line)
  match r with
  | .ok k => some k
  | .error _ => none

/-- rss_ringoccs/tools/rss_ringoccs_local_tools.py 1763-1778: what `get_all_SC_kernels` asks for, one after the other; whether the web gives it does not matter,
because its exceptions are caught too. -/
def scKernels (lines : List (List Char)) : List (List Char) := (lines.filterMap scKernel).map fun k => "naif/CASSINI/kernels/spk/".toList ++ k

end Verif.Pick
