import Verif.Model.Comparisons

/-!
# The page of the calibration in the summary document: rss_ringoccs/tools/create_summary_doc_v5.py 785-856 (the same in create_summary_doc.py 570-641)

Simplifications: exact rational numbers, no NaN; the curves interpolated to the times of the profile are given; the smoothing of SciPy is only asked whether it
accepts its arguments.
-/
namespace Verif.CalPage
open Verif.Rsr Verif.Cmp

/-- `int` of a number: towards 0. -/
def trunc (x : ℚ) : ℤ := if 0 ≤ x then ⌊x⌋ else ⌈x⌉

/-- create_summary_doc_v5.py 816: `floor_fsky`, the number in the label of the first axis. -/
def floorSky (f : List ℚ) : Py ℤ := do
  let m ← npMax (f.map (· / 1000000))
  pure (trunc m)

/-- create_summary_doc_v5.py 828: the values of the first axis, in MHz. -/
def skyCurve (f : List ℚ) : Py (List ℚ) := do
  let n ← floorSky f
  pure (f.map fun x => (x - n * 1000000) * (1 / 1000000))

/-- create_summary_doc_v5.py 840-841: the limits of the axis of the frequency offset. -/
def offsetLimits (fit : List ℚ) : Py (ℚ × ℚ) := do
  let lo ← npMin fit
  let hi ← npMax fit
  pure (lo - 0.1, hi + 0.1)

/-- create_summary_doc_v5.py 847-848: a power on its axis. -/
def powerCurve (p : List ℚ) : List ℚ := p.map (· * (2 / 1000000000))

/-- create_summary_doc_v5.py 820: the unit of the axis of the power, in its label. -/
def powerUnit : ℚ := 2 * 10 ^ 9

/-- create_summary_doc_v5.py 854: the limits of the axis of the power. -/
def powerLimits (free : List ℚ) : Py (ℚ × ℚ) := do
  let m ← npMax (powerCurve free)
  pure (0, m * 1.3)

/-- create_summary_doc_v5.py 807-811, 878-882 and 965-969: the width of the smoothing for `n` points, `w` is 61 or 123. -/
def windowLength (w : ℤ) (n : Nat) : ℤ :=
  if (n : ℤ) < w then
    let l := (n : ℤ) - 1
    if l % 2 = 0 then l - 1 else l
  else w

end Verif.CalPage
