import Verif.Model.GeoReal

/-!
# What the geometry is meant to be, in vectors that no frame is needed for
-/
namespace Verif.Geo.Spec
open Real

/-- The phase, to second order, that a spherical wave from a source at the distance `D` has gained, against a plane wave in the
line of sight, at a point of the ring plane that lies `x` outward and `y` along the orbit from the intercept point.  `B` is the
opening angle, `φ` the azimuth (radians); `c * x - s * y` is the displacement along the line of sight. -/
noncomputable def phase2 (lambda D B φ x y : ℝ) : ℝ :=
  2 * π / lambda / (2 * D) * (x ^ 2 + y ^ 2 - (cos B * cos φ * x - cos B * sin φ * y) ^ 2)

/-- `φ` (radians) is the angle, counterclockwise around the pole `n`, from the projection of `a` onto the plane at right angles
to `n` to that of `b`. -/
def IsAzimuth (n a b : V3) (φ : ℝ) : Prop :=
  let ra := √(a.dot a - a.dot n ^ 2)
  let rb := √(b.dot b - b.dot n ^ 2)
  ra * rb * cos φ = a.dot b - a.dot n * b.dot n ∧ ra * rb * sin φ = n.dot (a.cross b)

/-- `f` is a rotation: it keeps scalar and vector products. -/
def IsRotation (f : V3 → V3) : Prop :=
  (∀ u v, (f u).dot (f v) = u.dot v) ∧ ∀ u v, f (u.cross v) = (f u).cross (f v)

end Verif.Geo.Spec
