import Verif.Model.Rsr
import Mathlib.Algebra.Order.Floor.Ring
import Mathlib.Data.Rat.Floor

/-!
# The curves of a comparison of results: rss_ringoccs/tools/rss_ringoccs_local_tools.py 2719-2872

Simplifications: exact rational numbers, no NaN; the labels, the thresholds, the file of the figure and limits given by the caller are left out; the results
have all keys that are read (those of `tau_from_CSV` have neither `band` nor `tau_threshold`, a `KeyError`).
-/
namespace Verif.Cmp
open Verif.Rsr

/-- One result: its radii, its optical depths or phases, and whether they come from a file (`rr['tau_file']` is not `None`). -/
structure Result where
  rkm : List ℚ
  col : List ℚ
  fromFile : Bool

/-- What the caller asks for. -/
structure Ask where
  phase : Bool
  adjust : Bool
  yOff : ℚ
  dyOff : ℚ
  /-- The smaller end of `inversion_range` of the first result. -/
  rlow : ℚ
  /-- Radii and values of the file of the archive, when there is one and it was asked for. -/
  pds : Option (List ℚ × List ℚ)

/-- rss_ringoccs_local_tools.py 2790-2802: the values with the offset. -/
def yOffset (a : Ask) (r : Result) : List ℚ :=
  let tau := if r.fromFile then r.col.map (· + a.yOff) else r.col
  tau.map (· + a.yOff)

/-- rss_ringoccs_local_tools.py 2813-2814: `min(np.where(r >= low))[0]`, an `IndexError` when there is none. -/
def firstFrom (r : List ℚ) (low : ℚ) : Py Nat :=
  match r.findIdx? fun x => decide (x ≥ low) with
  | some i => .ok i
  | none => .error .index

/-- Python's `%` for a positive second argument. -/
def pmod (x m : ℚ) : ℚ := x - m * ⌊x / m⌋

/-- Element `i` of an array. -/
def item (l : List ℚ) (i : Nat) : Py ℚ :=
  match l[i]? with
  | some x => .ok x
  | none => .error .index

/-- rss_ringoccs_local_tools.py 2811-2817: what is added to the phases.  Without the file of the archive `rPDS3` is not bound. -/
def dyMatch (a : Ask) (r : Result) (y : List ℚ) : Py ℚ :=
  if a.adjust then
    match a.pds with
    | none => .error .unboundLocal
    | some (rp, yp) => do
      let lp ← firstFrom rp a.rlow
      let l ← firstFrom r.rkm a.rlow
      let u ← item yp lp
      let v ← item y l
      pure (u - v)
  else .ok 0

/-- rss_ringoccs_local_tools.py 2802-2818: `yvals` of one result. -/
def yvals (a : Ask) (r : Result) : Py (List ℚ) :=
  if a.phase then do
    let d ← dyMatch a r (yOffset a r)
    pure ((yOffset a r).map fun y => pmod (y + d + 360 + 180) 360 - 180)
  else .ok (yOffset a r)

/-- rss_ringoccs_local_tools.py 2819-2822: the curve of result `i`. -/
def curve (a : Ask) (i : Nat) (r : Result) : Py (List ℚ) := do
  let y ← yvals a r
  pure (if i = 0 then y else y.map (· + i * a.dyOff))

/-- `np.max`; an array without elements is a `ValueError`. -/
def npMax : List ℚ → Py ℚ
  | [] => .error .value
  | x :: t => .ok (t.foldl max x)

/-- `np.min`. -/
def npMin : List ℚ → Py ℚ
  | [] => .error .value
  | x :: t => .ok (t.foldl min x)

/-- rss_ringoccs_local_tools.py 2829-2841: the limits, from the values `y` of the last result and its number `i`. -/
def limits (a : Ask) (y : List ℚ) (i : Nat) : Py (ℚ × ℚ) :=
  if a.phase && !a.adjust then .ok (-180, 180)
  else do
    let ymax ← npMax (y.map (· + i * a.dyOff))
    let ymin ← npMin (y.map (· + i * a.dyOff))
    let hi := if ymax > 0 then 1.2 * ymax else 0.8 * ymax
    let lo := if ymin > 0 then 0.8 * ymin else 1.2 * ymin
    pure (if a.phase then lo else -0.05, hi)

/-- rss_ringoccs_local_tools.py 2777-2846: all curves and the limits of the figure.  The loop variables `yvals` and `i` are used after the loop. -/
def plotAll (a : Ask) (rs : List Result) : Py (List (List ℚ) × (ℚ × ℚ)) := do
  let cs ← (rs.zipIdx).mapM fun p => curve a p.2 p.1
  match rs.getLast? with
  | none => .error .index
  | some r => do
    let y ← yvals a r
    let l ← limits a y (rs.length - 1)
    pure (cs, l)

end Verif.Cmp
