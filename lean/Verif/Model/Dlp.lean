import Verif.Model.PowerNorm
import Verif.Model.Gaps

/-!
# Diffraction-limited profiles

Simplifications: exact arithmetic of rational numbers; arrays are lists; the attributes of the instances that are only copied are
columns in a list.
-/
namespace Verif.Cal
open Verif.Rsr Verif.Geo

/-- `l[a:b]`. -/
def slice {α : Type} (l : List α) (a b : Nat) : List α := (l.take b).drop a

/-- rss_ringoccs/calibration/dlp_class.py 128-136: times and signal between the first and the last time of the geometry. -/
def trimSamples {α : Type} (spm : List ℚ) (iq : List α) (spmGeo : List ℚ) : Py (List ℚ × List α) := do
  let hi ← pyMaxL spmGeo
  let lo ← pyMinL spmGeo
  if spm.any (fun t => hi < t) || spm.any (fun t => t < lo) then
    let ind1 ← firstIndex (fun t => t = spmGeo.getD 0 0) spm
    let ind2 ← firstIndex (fun t => t = spmGeo.getD (spmGeo.length - 1) 0) spm
    pure (slice spm ind1 ind2, slice iq ind1 ind2)
  else pure (spm, iq)

/-- rss_ringoccs/calibration/dlp_class.py 150-176.  `list.index(min(list, key=…))` is the first index with the least key. -/
def sliceRange {α : Type} (rho : List ℚ) (iq : List α) (a b : ℚ) : Py (List ℚ × List α) :=
  if rho.any (fun r => a < r ∧ r < b) then do
    let ind1 ← argmin (rho.map fun r => |r - a|)
    let ind2 ← argmin (rho.map fun r => |r - b|)
    pure (slice rho ind1 (ind2 + 1), slice iq ind1 (ind2 + 1))
  else .error .value

/-- `interp1d(x, y)` without extrapolation: a `ValueError` outside. -/
def interpIn (x y : List ℚ) (v : ℚ) : Py ℚ := do
  let lo ← pyMinL x
  let hi ← pyMaxL x
  if v < lo ∨ hi < v then .error .value else pure (interp1d x y v)

/-- `np.interp(v, x, y)` for growing `x`. -/
def npInterp (x y : List ℚ) (v : ℚ) : ℚ :=
  if v ≤ x.getD 0 0 then y.getD 0 0
  else if x.getD (x.length - 1) 0 ≤ v then y.getD (x.length - 1) 0
  else
    let j := x.countP (fun t => t ≤ v) - 1
    (y.getD (j + 1) 0 - y.getD j 0) / (x.getD (j + 1) 0 - x.getD j 0) * (v - x.getD j 0) + y.getD j 0

/-- What is used of geometry and calibration: `cols` are the columns of the geometry, `calCols` those of the calibration (sky
frequency, threshold), which are given at the times `spmCal`; `rhoCal` are the radii at those times. -/
structure DlpIn where
  rho : List ℚ
  spm : List ℚ
  rhoDot : List ℚ
  cols : List (List ℚ)
  dir : Dir
  spmCal : List ℚ
  rhoCal : List ℚ
  pFree : List ℚ
  calCols : List (List ℚ)

/-- The rows of a profile. -/
structure DlpRows where
  rho : List ℚ
  spm : List ℚ
  pNorm : List ℚ
  iq : List (ℚ × ℚ)
  rhoDot : List ℚ
  cols : List (List ℚ)
  calCols : List (List ℚ)
  deriving DecidableEq

/-- `np.delete(l, np.argwhere(mask))`. -/
def deleteWhere {α : Type} (mask : List Bool) (l : List α) : List α := maskList (mask.map not) l

/-- rss_ringoccs/calibration/dlp_class.py 258-364, without the optical depth: rows with the wrong sign of the velocity are removed
if there are both signs; line 267 uses a name without a value for other directions. -/
def setRows (g : DlpIn) (rho spm pNorm : List ℚ) (iq : List (ℚ × ℚ)) : Py DlpRows := do
  let dot := spm.map (npInterp g.spm g.rhoDot)
  let lo ← pyMinL dot
  let hi ← pyMaxL dot
  let fill (rho spm pNorm : List ℚ) (iq : List (ℚ × ℚ)) : DlpRows :=
    ⟨rho, spm, pNorm, iq, spm.map (npInterp g.spm g.rhoDot), g.cols.map (fun c => spm.map (npInterp g.spm c)),
      g.calCols.map (fun c => spm.map (npInterp g.spmCal c))⟩
  if lo < 0 ∧ 0 < hi then
    match g.dir with
    | .both => .error .unboundLocal
    | .ingress =>
      let m := dot.map fun x => decide (0 < x)
      pure (fill (deleteWhere m rho) (deleteWhere m spm) (deleteWhere m pNorm) (deleteWhere m iq))
    | .egress =>
      let m := dot.map fun x => decide (x < 0)
      pure (fill (deleteWhere m rho) (deleteWhere m spm) (deleteWhere m pNorm) (deleteWhere m iq))
  else pure (fill rho spm pNorm iq)

/-- rss_ringoccs/calibration/dlp_class.py 150-213, from the resampled signal to the rows.  A free-space power of 0 is not modelled
(`zeroDivision`). -/
def dlpRows (g : DlpIn) (rho : List ℚ) (iq : List (ℚ × ℚ)) (a b : ℚ) : Py DlpRows := do
  let s ← sliceRange rho iq a b
  let spm ← s.1.mapM (interpIn g.rho g.spm)
  let pFree ← s.1.mapM (interpIn g.rhoCal g.pFree)
  if pFree.any (fun p => p = 0) then .error .zeroDivision
  else
    let pNorm := List.zipWith (fun z p => (z.1 ^ 2 + z.2 ^ 2) / p) s.2 pFree
    let low ← pyMinL pNorm
    if low < 0 then .error .value
    else setRows g s.1 spm pNorm s.2

end Verif.Cal
