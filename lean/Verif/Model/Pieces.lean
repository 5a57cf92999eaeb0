import Verif.Model.Rsr
import Mathlib.Data.Rat.Floor
import Mathlib.Data.List.Sort

/-!
# Reconstruction of a radial range in pieces

The range is cut into pieces, one process reconstructs each of them and writes its own table, and the tables are put together
again.  What the reconstruction of a piece keeps is in `Model/Window.lean` (`getWindowWidth`).

Numbers of radii are exact: the template that cuts and runs the pieces only uses whole kilometres
(pipeline/batch_parallel_CSVtoTAU_template-20260130a.py 60, 232 and 239).
-/
namespace Verif.Batch
open Verif.Rsr (Py Exn)

/-- The loop of `subdivide_inversion_range`: rss_ringoccs/tools/rss_ringoccs_local_tools.py 3646-3658; `n` is `nranges` and
`acc` holds `min_ranges` and `max_ranges` together.  `none` after `fuel` passes: the loop is still running. -/
def subLoop (r0 r1 d : ℚ) : Nat → Nat → List (ℚ × ℚ) → Option (Nat × List (ℚ × ℚ))
  | 0, _, _ => none
  | fuel + 1, n, acc =>
    let lo := r0 + (n - 1) * d
    let hi := if r1 < lo + d then r1 else lo + d
    let acc := acc ++ [(lo, hi)]
    if hi = r1 then some (n - 1 + 1, acc) else subLoop r0 r1 d fuel (n + 1) acc

/-- `subdivide_inversion_range`: rss_ringoccs/tools/rss_ringoccs_local_tools.py 3641-3659. -/
def subdivide (r0 r1 d : ℚ) (fuel : Nat) : Option (Nat × List (ℚ × ℚ)) := subLoop r0 r1 d fuel 1 []

/-- `drange`: pipeline/batch_parallel_CSVtoTAU_template-20260130a.py 232; the quotient of two integers is a double. -/
def pieceSize (rnd : ℚ → ℚ) (r0 r1 : ℤ) (workers : Nat) : ℤ := ⌈rnd ((r1 - r0 : ℤ) / (workers : ℚ))⌉

/-- `np.loadtxt(file)[0,0]`: rss_ringoccs/tools/rss_ringoccs_local_tools.py 2150-2152.  A table of one row becomes a
one-dimensional array and an empty file an empty one, so that `[0,0]` is an `IndexError`. -/
def firstRadius {α : Type} : List (ℚ × α) → Py ℚ
  | a :: _ :: _ => .ok a.1
  | _ => .error .index

/-- The table made by `merge_sorted_tabfiles` from the tables found in the directory, in the order of the directory:
rss_ringoccs/tools/rss_ringoccs_local_tools.py 2142-2161.  A row is its radius with the rest of the line.
`glob.glob(...)[0]` of no file is an `IndexError`.  `np.argsort` is modelled by a stable sort; this matters only for tables
that begin at the same radius. -/
def mergeTab {α : Type} (files : List (List (ℚ × α))) : Py (List (ℚ × α)) :=
  match files with
  | [] => .error .index
  | f :: fs => do
    let r0 ← (f :: fs).mapM firstRadius
    .ok (((r0.zip (f :: fs)).insertionSort fun a b => a.1 ≤ b.1).flatMap Prod.snd)

end Verif.Batch
