import Verif.Model.PowerNorm
import Mathlib.Data.List.Infix
import Mathlib.Algebra.Order.Floor.Ring
import Mathlib.Data.Rat.Floor

/-!
# Checks of the range to be reconstructed in the batch programs

Simplifications: exact arithmetic of rational numbers; the product of resolution and resolution factor is not zero.  Every exception is
the outcome `none`, since lines 185-194 replace each by the same kind of exception.
-/
namespace Verif.Inv
open Verif.Geo Verif.Cal Verif.Rsr

/-- Columns 3, 8 and 10 of a row of a GEO file: radius, radial velocity, Fresnel scale. -/
structure Row where
  r : ℚ
  rdot : ℚ
  F : ℚ
  deriving DecidableEq

/-- A Python value that may be an exception. -/
def orNone {α : Type} : Py α → Option α
  | .ok a => some a
  | .error _ => none

/-- pipeline/batch_parallel_CSVtoTAU_template-20260130a.py 45-47: `processing_window`. -/
def window (F factor res : ℚ) : ℚ := 2 * F ^ 2 / (factor * res)

/-- pipeline/batch_parallel_CSVtoTAU_template-20260130a.py 50-59 and 33-42: the rows of the GEO file on the side of the occultation, with
radii between the least and the greatest one of the DLP file. -/
def chosen (name : List Char) (rows : List Row) (dlp : List ℚ) : Option (List Row) :=
  match orNone (pyMinL dlp), orNone (pyMaxL dlp) with
  | some lo, some hi =>
    if "I_GEO".toList <:+: name then some (rows.filter fun x => x.rdot < 0 ∧ lo ≤ x.r ∧ x.r ≤ hi)
    else if "E_GEO".toList <:+: name then some (rows.filter fun x => 0 < x.rdot ∧ lo ≤ x.r ∧ x.r ≤ hi)
    else none
  | _, _ => none

/-- pipeline/batch_parallel_CSVtoTAU_template-20260130a.py 60-77: `update_inversion_range` for the rows chosen. -/
def updateRows (a b : ℤ) (rows : List Row) (factor res : ℚ) : Option (ℤ × ℤ) := do
  let least ← orNone (pyMinL (rows.map Row.r))
  let greatest ← orNone (pyMaxL (rows.map Row.r))
  let ll := rows.filter fun x => least ≤ x.r - window x.F factor res / 2 ∧ x.r + window x.F factor res / 2 ≤ greatest
  let first ← orNone (pyMinL (ll.map Row.r))
  let last ← orNone (pyMaxL (ll.map Row.r))
  let lo := max a ⌈first⌉
  let hi := min b ⌊last⌋
  if hi ≤ lo then none else some (lo, hi)

/-- pipeline/batch_parallel_CSVtoTAU_template-20260130a.py 49-77: `update_inversion_range`. -/
def update (a b : ℤ) (name : List Char) (rows : List Row) (dlp : List ℚ) (factor res : ℚ) : Option (ℤ × ℤ) := do
  let kept ← chosen name rows dlp
  updateRows a b kept factor res

/-- pipeline/batch_parallel_CSVtoTAU_template-20260130a.py 13-21: `processing_range_required`. -/
def required (a b : ℤ) (rows : List Row) (factor res : ℚ) : Option (ℤ × ℤ) := do
  let least ← orNone (pyMinL (rows.map Row.r))
  let greatest ← orNone (pyMaxL (rows.map Row.r))
  if (a : ℚ) < least ∨ greatest < b then none
  else
    let w := interp1d (rows.map Row.r) (rows.map fun x => window x.F factor res)
    some (⌊(a : ℚ) - w a / 2⌋, ⌈(b : ℚ) + w b / 2⌉)

/-- pipeline/batch_parallel_CSVtoTAU_template-20260130a.py 23-30: `is_processing_range_valid`. -/
def valid (a b : ℤ) (rows : List Row) (factor res : ℚ) : Option Bool := do
  let (p, q) ← required a b rows factor res
  let least ← orNone (pyMinL (rows.map Row.r))
  let greatest ← orNone (pyMaxL (rows.map Row.r))
  some (decide (least ≤ p ∧ (q : ℚ) ≤ greatest))

/-- pipeline/batch_parallel_CSVtoTAU_template-20260130a.py 204-211: the radii of the DLP file span the range, with the index 0 in both
comparisons. -/
def spans (dlp : List ℚ) (a : ℤ) : Bool :=
  !(decide ((a : ℚ) < dlp.getD 0 0) || decide (dlp.getD (dlp.length - 1) 0 < a))

/-- pipeline/batch_parallel_CSVtoTAU_template-20260130a.py 182-211: the range that is reconstructed, or an exception.  The two functions
choose the same rows, since the first reads the files in its arguments and the second the same files in part by the global names. -/
def accepted (a b : ℤ) (name : List Char) (rows : List Row) (dlp : List ℚ) (factor res : ℚ) : Option (ℤ × ℤ) := do
  let (lo, hi) ← update a b name rows dlp factor res
  let kept ← chosen name rows dlp
  let ok ← valid lo hi kept factor res
  if ok = false then none
  else if spans dlp lo = false then none
  else some (lo, hi)

/-- src/tau/rss_ringoccs_tau_get_window_width.c 131-140: the width of the window in the library without the correction for the Allan
deviation.  rss_ringoccs/crssringoccs/diffraction_correction/crssringoccs_diffraction_correction_init.c 233: the resolution is that of the
call times the resolution factor. -/
def libWindow (normeq F factor res : ℚ) : ℚ := 2 * F * F * (normeq / (res * factor))

end Verif.Inv
