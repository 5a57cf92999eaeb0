import Verif.Model.Rsr
import Mathlib.Analysis.SpecialFunctions.Complex.Circle
import Mathlib.Algebra.Order.Floor.Ring

/-!
# Removal of the frequency offset

Simplifications: real and complex numbers with exact arithmetic.  `spl xs ys t` stands for `splev(t, splrep(xs, ys))`, the cubic
spline through the points, which scipy continues outside of them; it needs at least four points.
-/
namespace Verif.Cal
open Verif.Rsr

/-- Python's `round` of a real number. -/
noncomputable def roundR (x : ℝ) : Int :=
  if Int.fract x = 1 / 2 then (if ⌊x⌋ % 2 = 0 then ⌊x⌋ else ⌊x⌋ + 1) else ⌊x + 1 / 2⌋

/-- `np.cumsum`. -/
def cumsum : List ℝ → List ℝ
  | l => (List.range l.length).map fun i : Nat => (l.take (i + 1)).sum

/-- rss_ringoccs/calibration/calibration_class.py 226-240: the phase as a function of time. -/
noncomputable def detrend (spl : List ℝ → List ℝ → ℝ → ℝ) (fSpm fOff : List ℝ) : Py (ℝ → ℝ) :=
  let dt : ℝ := 0.01
  if fSpm.length = 0 then .error .index
  else
    let f0 := fSpm.getD 0 0
    let npts := (roundR ((fSpm.getD (fSpm.length - 1) 0 - f0) / dt)).toNat
    let grid := (List.range npts).map fun i : Nat => f0 + dt * (i : ℝ)
    if fSpm.length < 4 then .error .type
    else
      let off := grid.map (spl fSpm fOff)
      let rad := ((cumsum off).map fun x => x * dt).map fun x => x * (2 * Real.pi)
      if npts < 4 then .error .type else .ok (spl grid rad)

/-- rss_ringoccs/calibration/calibration_class.py 192-245. -/
noncomputable def correctIQ (spl : List ℝ → List ℝ → ℝ → ℝ) (spm : List ℝ) (iq : List ℂ) (fSpm fOff : List ℝ) : Py (List ℂ) := do
  let psi ← detrend spl fSpm fOff
  if spm.length = iq.length then
    pure (List.zipWith (fun t z => z * Complex.exp (-Complex.I * psi t)) spm iq)
  else .error .value

end Verif.Cal
