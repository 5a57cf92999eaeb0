import Mathlib.Analysis.SpecialFunctions.Trigonometric.Basic

/-!
# The view of the occultation from above the pole

`rss_ringoccs/tools/create_summary_doc_v5.py`, 387-478.  Real arithmetic; the track is a list of radii (km) and
longitudes from the direction to Earth (degrees), one for every second.
-/
namespace Verif.Sky
open Real

/-- `create_summary_doc_v5.py` 455-456: the place of one point in the drawing. -/
noncomputable def poleXY (s : ℝ × ℝ) : ℝ × ℝ :=
  (s.1 * cos ((s.2 - 90) * (π / 180)), s.1 * sin ((s.2 - 90) * (π / 180)))

/-- `create_summary_doc_v5.py` 448-456: the points up to 150000 km. -/
noncomputable def poleTrack (track : List (ℝ × ℝ)) : List (ℝ × ℝ) :=
  (track.filter fun s => ¬ s.1 > 150000).map poleXY

/-- `create_summary_doc_v5.py` 458: the distance from the centre of the drawing. -/
noncomputable def poleR (q : ℝ × ℝ) : ℝ := √(q.1 ^ 2 + q.2 ^ 2)

open Classical in
/-- `create_summary_doc_v5.py` 459-460: the dashed line, inside the equator of the planet. -/
noncomputable def poleDashed (Re : ℝ) (track : List (ℝ × ℝ)) : List (ℝ × ℝ) :=
  (poleTrack track).filter fun q => poleR q < Re

open Classical in
/-- `create_summary_doc_v5.py` 462-465: the solid line. -/
noncomputable def poleSolid (Re : ℝ) (track : List (ℝ × ℝ)) : List (ℝ × ℝ) :=
  (poleTrack track).filter fun q => poleR q > Re

/-- `create_summary_doc_v5.py` 468-469: marker `k`, of the slice `[::1800]` of the solid line. -/
noncomputable def poleMarker (Re : ℝ) (track : List (ℝ × ℝ)) (k : Nat) : Option (ℝ × ℝ) :=
  (poleSolid Re track)[60 * 30 * k]?

/-- `create_summary_doc_v5.py` 472: the line towards Earth, from its first to its last point. -/
def poleEarth : (ℝ × ℝ) × (ℝ × ℝ) := ((0, -68000), (0, -180000))

end Verif.Sky
