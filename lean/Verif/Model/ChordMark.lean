import Verif.Model.Comparisons

/-!
# The circle on the page of the geometry of a chord: rss_ringoccs/tools/create_summary_doc_v5.py 567-587

Simplification: exact rational numbers, no NaN.
-/
namespace Verif.Chord
open Verif.Rsr Verif.Cmp

/-- `np.argwhere(...)[0][0]` where the list is not empty, and the first index of the value `m` otherwise: create_summary_doc_v5.py 576-580 and 583-587. -/
def firstOr (c : ℚ → Bool) (m : ℚ) (rho : List ℚ) : Py Nat :=
  match rho.findIdx? c with
  | some i => pure i
  | none => match rho.findIdx? (· == m) with
    | some i => pure i
    | none => throw .index

/-- create_summary_doc_v5.py 567-587: `ind0`, the sample with the circle.  There are two samples at least, or `rho_km[1]` is an `IndexError`. -/
def ind0 (rho : List ℚ) : Py Nat :=
  match rho with
  | a :: b :: _ => do
    if b - a < 0 then
      let m ← npMax rho
      firstOr (· < 150000) m rho
    else
      let m ← npMin rho
      firstOr (70000 < ·) m rho
  | _ => throw .index

end Verif.Chord
