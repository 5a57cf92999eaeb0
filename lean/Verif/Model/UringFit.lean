import Mathlib.Algebra.Order.Ring.Rat
import Mathlib.Algebra.Order.Group.Unbundled.Abs
import Mathlib.Data.List.Basic

/-!
# The points for the fit of the free power in the pipeline of Uranus

Simplifications: exact arithmetic.  The fit itself is not modelled, only which points it takes.
-/
namespace Verif.Uring

/-- `np.argmin(abs(rho-x))`: the first index of the least distance. -/
def argNear (rho : List ℚ) (x : ℚ) : Nat := rho.findIdx fun r => rho.all fun s => decide (|r - x| ≤ |s - x|)

/-- pipeline/pipeline_uranus/dlp.py 131-145: what one ring, at `km` with width `wd`, does to the mask. -/
def exclude (rho : List ℚ) (mask : List Bool) (ring : ℚ × ℚ) : List Bool :=
  if ring.1 < rho.headD 0 ∨ rho.getLastD 0 < ring.1 then mask
  else mask.mapIdx fun j b => if argNear rho (ring.1 - ring.2 - 16) ≤ j ∧ j < argNear rho (ring.1 + ring.2 + 16) + 1 then false else b

/-- pipeline/pipeline_uranus/dlp.py 129-149: `ring_excl`, for the rings of one direction (pipeline/pipeline_uranus/pipeline_params.py 29 and 41-54) and profiles
that are not empty. -/
def fitMask (rho power : List ℚ) (rings : List (ℚ × ℚ)) : List Bool :=
  let m := rings.foldl (exclude rho) (rho.map fun _ => true)
  let m := m.mapIdx fun j b => if j < 50 then false else b
  let m := m.mapIdx fun j b => if m.length - 50 ≤ j then false else b
  List.zipWith (fun b p => if 3000 < p then false else b) m power

end Verif.Uring
