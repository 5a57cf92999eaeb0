import Mathlib.Analysis.SpecialFunctions.Trigonometric.Inverse
import Mathlib.Analysis.SpecialFunctions.Trigonometric.Arctan
import Mathlib.Analysis.SpecialFunctions.Complex.Arg
import Mathlib.Algebra.Order.Floor.Ring

/-!
# Formulas of the occultation geometry

Simplifications: real numbers with exact arithmetic; the decimal constants of lines 20-21 are the exact conversions between
degrees and radians.  The vector functions of SPICE are not part of /repo and are taken from their documentation; positions
that SPICE computes from kernels are arguments.
-/
namespace Verif.Geo
open Real

/-- A vector in km. -/
structure V3 where
  x : ℝ
  y : ℝ
  z : ℝ

/-- Scalar product. -/
def V3.dot (u v : V3) : ℝ := u.x * v.x + u.y * v.y + u.z * v.z

/-- Vector product. -/
def V3.cross (u v : V3) : V3 := ⟨u.y * v.z - u.z * v.y, u.z * v.x - u.x * v.z, u.x * v.y - u.y * v.x⟩

/-- SPICE `vnorm`. -/
noncomputable def V3.norm (u : V3) : ℝ := √(u.dot u)

/-- Multiple of a vector. -/
def V3.smul (a : ℝ) (u : V3) : V3 := ⟨a * u.x, a * u.y, a * u.z⟩

/-- Difference of vectors. -/
def V3.sub (u v : V3) : V3 := ⟨u.x - v.x, u.y - v.y, u.z - v.z⟩

/-- SPICE `vhat`. -/
noncomputable def V3.hat (u : V3) : V3 := u.smul u.norm⁻¹

/-- A matrix, as its rows. -/
structure M3 where
  r1 : V3
  r2 : V3
  r3 : V3

/-- SPICE `mxv`. -/
def M3.mxv (m : M3) (v : V3) : V3 := ⟨m.r1.dot v, m.r2.dot v, m.r3.dot v⟩

/-- SPICE `twovec(axdef, 3, plndef, 2)`: the third axis along `axdef`, the second in the half plane of `plndef`. -/
noncomputable def twovec32 (axdef plndef : V3) : M3 :=
  let z := axdef.hat
  let y := (plndef.sub (z.smul (plndef.dot z))).hat
  ⟨y.cross z, y, z⟩

/-- SPICE `rotate(angle, 3)`. -/
noncomputable def rotate3 (a : ℝ) : M3 := ⟨⟨cos a, sin a, 0⟩, ⟨-sin a, cos a, 0⟩, ⟨0, 0, 1⟩⟩

/-- SPICE `vsep`, for vectors that are not 0. -/
noncomputable def vsep (u v : V3) : ℝ := arccos (u.dot v / (u.norm * v.norm))

/-- `np.arctan2(y, x)`. -/
noncomputable def arctan2 (y x : ℝ) : ℝ := Complex.arg ⟨x, y⟩

/-- The right ascension of SPICE `recrad`, at least 0 and less than 2π. -/
noncomputable def recradRa (v : V3) : ℝ := if Complex.arg ⟨v.x, v.y⟩ < 0 then Complex.arg ⟨v.x, v.y⟩ + 2 * π else Complex.arg ⟨v.x, v.y⟩

/-- rss_ringoccs/occgeo/calc_occ_geometry.py 20. -/
noncomputable def toDeg (x : ℝ) : ℝ := x * (180 / π)

/-- rss_ringoccs/occgeo/calc_occ_geometry.py 21, and `np.radians`. -/
noncomputable def toRad (x : ℝ) : ℝ := x * (π / 180)

/-- Python's `x % d`. -/
noncomputable def mod (x d : ℝ) : ℝ := x - d * ⌊x / d⌋

/-- rss_ringoccs/occgeo/calc_occ_geometry.py 64-71 for one time; `starg` is the vector from spacecraft to station. -/
noncomputable def calcB (starg nhat : V3) : ℝ := toDeg (π / 2 - vsep starg nhat)

/-- rss_ringoccs/occgeo/calc_occ_geometry.py 23. -/
def lightSpeed : ℝ := 299792.458

/-- rss_ringoccs/occgeo/calc_occ_geometry.py 86. -/
noncomputable def calcD (t1 t2 : ℝ) : ℝ := |t1 - t2| * lightSpeed

/-- rss_ringoccs/occgeo/calc_occ_geometry.py 109-118 for one time. -/
noncomputable def calcF (dist f bDeg phiDeg : ℝ) : ℝ :=
  let lambda := lightSpeed / f
  √(0.5 * lambda * dist * (1 - cos (toRad bDeg) ^ 2 * sin (toRad phiDeg) ^ 2) / sin (toRad bDeg) ^ 2)

/-- rss_ringoccs/occgeo/calc_occ_geometry.py 136-139. -/
noncomputable def calcBEff (bDeg phiDeg : ℝ) : ℝ := arctan2 (tan (toRad bDeg)) (cos (toRad phiDeg))

/-- rss_ringoccs/occgeo/calc_occ_geometry.py 153-155. -/
noncomputable def calcBeta (bDeg phiDeg : ℝ) : ℝ := 1 / tan (calcBEff bDeg phiDeg)

/-- rss_ringoccs/occgeo/calc_occ_geometry.py 284-330 for one time: ring longitude and observed ring azimuth.  `starg` is the
vector from spacecraft to station, `rho` the ring intercept point. -/
noncomputable def calcPhi (starg rho nhat : V3) : ℝ × ℝ :=
  let rot := twovec32 nhat ⟨0, 0, 1⟩
  let phiRl := toDeg (recradRa (rot.mxv rho))
  let los := rot.mxv starg
  let los0 : V3 := ⟨los.x, los.y, 0⟩
  (phiRl, mod (phiRl - toDeg (recradRa los0) + 720) 360)

/-- rss_ringoccs/occgeo/calc_occ_geometry.py 1184-1210: a vector in the frame of the planet and the line of sight. -/
noncomputable def xformPcf (starg nhat v : V3) : V3 :=
  let rotZ := twovec32 nhat ⟨0, 0, 1⟩
  let vz := rotZ.mxv v
  let los := (rotZ.mxv starg).hat
  (rotate3 (arctan2 los.y los.x)).mxv vz

/-- SPICE `radrec` with range 1. -/
noncomputable def radrec1 (ra dec : ℝ) : V3 := ⟨cos ra * cos dec, sin ra * cos dec, sin dec⟩

/-- rss_ringoccs/occgeo/calc_occ_geometry.py 1145-1159. -/
noncomputable def getPole (et : ℝ) (ra dec : ℝ × ℝ × ℝ) : V3 :=
  let t := et / (86400 * 365.25 * 100)
  let rap := ra.1 + t * ra.2.1 + t ^ 2 * ra.2.2
  let dep := dec.1 + t * dec.2.1 + t ^ 2 * dec.2.2
  radrec1 (toRad rap) (toRad dep)

/-- SPICE `nplnpt`: the distance of the point `p` from the line through `a` with direction `d`. -/
noncomputable def lineDist (a d p : V3) : ℝ :=
  let w := p.sub a
  (w.sub (d.smul (w.dot d / d.dot d))).norm

end Verif.Geo
