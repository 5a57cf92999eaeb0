import Mathlib.Geometry.Euclidean.Angle.Unoriented.Basic
import Mathlib.Analysis.SpecialFunctions.Trigonometric.Inverse

/-!
# The elevation of the spacecraft

Simplifications: real numbers with exact arithmetic.  Vectors are those of any real inner product space, so in particular those of SPICE.  What SPICE returns for
positions is the parameter.
-/
namespace Verif.Elev
open Real

variable {V : Type*} [NormedAddCommGroup V] [InnerProductSpace ℝ V]

/-- `spice.vhat`: the unit vector, 0 for 0. -/
noncomputable def vhat (v : V) : V := ‖v‖⁻¹ • v

open Classical in
/-- `spice.vsep`, as its documentation gives it: 0 if one vector is 0, else by the length of the difference or of the sum of the unit vectors. -/
noncomputable def vsep (u v : V) : ℝ :=
  if u = 0 ∨ v = 0 then 0
  else if 0 < inner ℝ (vhat u) (vhat v) then 2 * arcsin (1 / 2 * ‖vhat u - vhat v‖)
  else if inner ℝ (vhat u) (vhat v) < 0 then π - 2 * arcsin (1 / 2 * ‖vhat u + vhat v‖)
  else π / 2

/-- rss_ringoccs/occgeo/calc_occ_geometry.py 186-199: one value of `calc_elevation_deg`, for the vector from the observer to the target and the one from the centre
of the Earth to the observer. -/
noncomputable def elevation (ptarg1 ptarg2 : V) : ℝ := 90 - vsep ptarg1 ptarg2 * (180 / π)

end Verif.Elev
