import Verif.Model.GeoReal
import Mathlib.Analysis.SpecialFunctions.Log.Deriv
import Mathlib.Analysis.SpecialFunctions.Sqrt

/-!
# Light time and clocks

Written without use of the model (but for the type of vectors).
-/
namespace Verif.Cal.Spec
open Real Verif.Geo

/-- Distance of two points. -/
noncomputable def dist (u v : V3) : ℝ := √((u.x - v.x) ^ 2 + (u.y - v.y) ^ 2 + (u.z - v.z) ^ 2)

/-- The origin. -/
def origin : V3 := ⟨0, 0, 0⟩

/-- `p` moves with the velocity `v` at the time `t`. -/
structure Moves (p : ℝ → V3) (v : V3) (t : ℝ) : Prop where
  x : HasDerivAt (fun s => (p s).x) v.x t
  y : HasDerivAt (fun s => (p s).y) v.y t
  z : HasDerivAt (fun s => (p s).z) v.z t

/-- Time of light from `u` to `v` with the delay in the field of a mass at the origin (`k` is twice its gravitational parameter
divided by the third power of the speed of light). -/
noncomputable def lightTime (c k : ℝ) (u v : V3) : ℝ :=
  dist u v / c + k * log ((dist u origin + dist v origin + dist u v) / (dist u origin + dist v origin - dist u v))

/-- Gravitational parameters in km³/s², by the number of the body. -/
noncomputable def gravity : Nat → ℝ
  | 10 => 132712440023.31 -- Sun
  | 1 => 22032.08 -- Mercury
  | 2 => 324858.599 -- Venus
  | 399 => 398600.436 -- Earth
  | 301 => 4902.799 -- Moon
  | 4 => 42828.314 -- Mars
  | 5 => 126712767.863 -- Jupiter
  | 6 => 37940626.063 -- Saturn
  | 606 => 8978.137030984 -- Titan
  | 7 => 5794549.007 -- Uranus
  | 8 => 6836534.064 -- Neptune
  | 9 => 981.601 -- Pluto
  | _ => 0

/-- The bodies whose gravity counts. -/
def attracting : List Nat := [10, 1, 2, 399, 301, 4, 5, 6, 606, 7, 8, 9]

end Verif.Cal.Spec
