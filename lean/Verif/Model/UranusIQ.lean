import Verif.Model.CorrectIQ

/-!
# Removal of the frequency offset in the pipeline of Uranus

Simplifications: real and complex numbers with exact arithmetic.  `simps ys xs` stands for `scipy.integrate.simps(ys, x=xs)`.
-/
namespace Verif.Cal
open Verif.Rsr Classical

/-- `np.interp(v, x, y)` for a non-empty `x`: first the two comparisons with the ends, then the search, described by the number of elements that are not greater than `v`
(right for rising `x`). -/
noncomputable def interpR (x y : List ℝ) (v : ℝ) : ℝ :=
  let n := x.length
  if x.getD (n - 1) 0 < v then y.getD (n - 1) 0
  else if v < x.getD 0 0 then y.getD 0 0
  else
    let j := x.countP (fun t => decide (t ≤ v)) - 1
    if j = n - 1 then y.getD j 0
    else (y.getD (j + 1) 0 - y.getD j 0) / (x.getD (j + 1) 0 - x.getD j 0) * (v - x.getD j 0) + y.getD j 0

/-- pipeline/pipeline_uranus/geocal.py 23-25 (pipeline/pipeline_uranus/scatter.py 24-26): `f_spm_ip`, for times that are not none. -/
noncomputable def uGrid (fSpm : List ℝ) : List ℝ :=
  let dt : ℝ := 0.01
  let f0 := fSpm.getD 0 0
  (List.range (roundR ((fSpm.getD (fSpm.length - 1) 0 - f0) / dt)).toNat).map fun i : Nat => f0 + dt * (i : ℝ)

/-- pipeline/pipeline_uranus/geocal.py 21-34 (pipeline/pipeline_uranus/scatter.py 22-35): the phase as a function of time.  `np.interp` without points, or with another number
of values, is a `ValueError`. -/
noncomputable def uDetrend (simps : List ℝ → List ℝ → ℝ) (fSpm fOff : List ℝ) : Py (ℝ → ℝ) :=
  if fSpm.length = 0 then .error .index
  else if fSpm.length ≠ fOff.length then .error .value
  else
    let grid := uGrid fSpm
    let off := grid.map (interpR fSpm fOff)
    let cyc := (List.range off.length).map fun i : Nat => simps (off.take (i + 1)) (grid.take (i + 1))
    let rad := cyc.map fun x => x * (2 * Real.pi) - Real.pi
    if grid.length = 0 then .error .value else .ok (interpR grid rad)

/-- pipeline/pipeline_uranus/geocal.py 20-39 (pipeline/pipeline_uranus/scatter.py 21-40): `correct_IQ`. -/
noncomputable def uCorrectIQ (simps : List ℝ → List ℝ → ℝ) (spm : List ℝ) (iq : List ℂ) (fSpm fOff : List ℝ) : Py (List ℂ) := do
  let psi ← uDetrend simps fSpm fOff
  if spm.length = iq.length then
    pure (List.zipWith (fun t z => z * Complex.exp (-Complex.I * psi t)) spm iq)
  else .error .value

end Verif.Cal
