import Mathlib.Analysis.SpecialFunctions.Trigonometric.Arctan
import Mathlib.Analysis.SpecialFunctions.Trigonometric.Inverse

/-!
# The view from Earth in the summary

Simplifications: real numbers with exact arithmetic; a division by 0 is 0 (NumPy: infinity).  A column vector is a structure, a matrix has three rows.
The file create_summary_doc.py has the same functions in its lines 105-318.
-/
namespace Verif.Sky
open Real

/-- A vector. -/
@[ext] structure V3 where
  x : ℝ
  y : ℝ
  z : ℝ

/-- A matrix by its rows. -/
structure M3 where
  r1 : V3
  r2 : V3
  r3 : V3

/-- The scalar product. -/
def dot (u v : V3) : ℝ := u.x * v.x + u.y * v.y + u.z * v.z

/-- `np.dot` of a matrix and a vector. -/
def M3.app (m : M3) (v : V3) : V3 := ⟨dot m.r1 v, dot m.r2 v, dot m.r3 v⟩

/-- `np.transpose`. -/
def M3.tr (m : M3) : M3 := ⟨⟨m.r1.x, m.r2.x, m.r3.x⟩, ⟨m.r1.y, m.r2.y, m.r3.y⟩, ⟨m.r1.z, m.r2.z, m.r3.z⟩⟩

/-- `np.matmul`. -/
def M3.mul (a b : M3) : M3 := ⟨b.tr.app a.r1, b.tr.app a.r2, b.tr.app a.r3⟩

/-- A rotation of the coordinates about the third axis, as in `spice.eul2m`. -/
noncomputable def rot3 (t : ℝ) : M3 := ⟨⟨cos t, sin t, 0⟩, ⟨-sin t, cos t, 0⟩, ⟨0, 0, 1⟩⟩

/-- A rotation of the coordinates about the second axis. -/
noncomputable def rot2 (t : ℝ) : M3 := ⟨⟨cos t, 0, -sin t⟩, ⟨0, 1, 0⟩, ⟨sin t, 0, cos t⟩⟩

/-- A rotation of the coordinates about the first axis. -/
noncomputable def rot1 (t : ℝ) : M3 := ⟨⟨1, 0, 0⟩, ⟨0, cos t, sin t⟩, ⟨0, -sin t, cos t⟩⟩

/-- rss_ringoccs/tools/create_summary_doc_v5.py 177-188: `calc_bp`, `B` and `P` in degrees. -/
noncomputable def calcBp (rap decp ra dec : ℝ) : ℝ × ℝ :=
  let dtor := π / 180
  let ap := rap * dtor
  let dp := decp * dtor
  let a := ra * dtor
  let d := dec * dtor
  (arcsin (-cos dp * cos d * cos (a - ap) - sin dp * sin d) / dtor,
    arctan (-cos dp * sin (a - ap) / (-cos dp * sin d * cos (a - ap) + sin dp * cos d)) / dtor)

/-- rss_ringoccs/tools/create_summary_doc_v5.py 236-246: `mm_PEQ2SKY`, from the matrix of line 220, the directions of the pole and of the planet in
radians (lines 227 and 231), which lines 233-236 turn into degrees. -/
noncomputable def peq2sky (eeq2peq : M3) (rap decp ra dec : ℝ) : M3 :=
  let P := (calcBp (rap * (180 / π)) (decp * (180 / π)) (ra * (180 / π)) (dec * (180 / π))).2 * (π / 180)
  (((rot3 (-ra)).mul (rot2 dec)).mul (rot1 P)).tr.mul eeq2peq.tr

/-- rss_ringoccs/tools/create_summary_doc_v5.py 253: `Brad`. -/
noncomputable def bRad (rap decp ra dec : ℝ) : ℝ :=
  (calcBp (rap * (180 / π)) (decp * (180 / π)) (ra * (180 / π)) (dec * (180 / π))).1 * (π / 180)

/-- rss_ringoccs/tools/create_summary_doc_v5.py 279-289 and 297: where the point at the angle `t` of a ring is drawn, and `zsky`. -/
noncomputable def ringPoint (m : M3) (R t : ℝ) : (ℝ × ℝ) × ℝ :=
  ((-(m.app ⟨R * cos t, R * sin t, 0⟩).y, (m.app ⟨R * cos t, R * sin t, 0⟩).z), (m.app ⟨R * cos t, R * sin t, 0⟩).x)

/-- rss_ringoccs/tools/create_summary_doc_v5.py 253-254: `Rpsky`, the second semi-axis of the outline of lines 256-269. -/
noncomputable def rpSky (B Re Rp : ℝ) : ℝ := √((Re * sin B) ^ 2 + (Rp * cos B) ^ 2)

/-- rss_ringoccs/tools/create_summary_doc_v5.py 306-325 (circles of latitude) and 327-347 (meridians, with `phi` the angle from the pole): where the
point at a latitude and a longitude is drawn, and `zsky`.  Points with `zsky` of 0 or more are not drawn. -/
noncomputable def bodyPoint (m : M3) (B Re Rp lat t : ℝ) : (ℝ × ℝ) × ℝ :=
  let w := m.app ⟨Re * cos lat * cos t, Re * cos lat * sin t, rpSky B Re Rp * sin lat⟩
  ((-w.y, w.z), w.x)

/-- rss_ringoccs/tools/create_summary_doc_v5.py 365-366: where a point of the track is drawn, for a longitude in degrees. -/
noncomputable def trackPoint (B rho phi : ℝ) : ℝ × ℝ :=
  (rho * cos ((phi - 90) * (π / 180)) * cos B, rho * sin ((phi - 90) * (π / 180)) * sin B)

/-- rss_ringoccs/tools/create_summary_doc_v5.py 359-364 and 367-371: which of the points that are kept (radius at most 150000 km) are taken for
blocked.  The time is that of the same index in all points. -/
def blocked (rho t : List ℚ) (ionos : List ℚ) : List Bool :=
  (List.range ((rho.filter fun r => decide (r ≤ 150000)).length)).map fun i => decide (∃ x ∈ t[i]?, x ∈ ionos)

end Verif.Sky
