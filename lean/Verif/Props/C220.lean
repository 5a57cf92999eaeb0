import Verif.Model.FrameState
import Verif.Props.C79

/-!
# The state of the spacecraft in a frame that is asked for (C220, C221)
-/
namespace Verif.Geo
open Verif.Geo.Spec

/-- The point of the line of sight at the multiple `t` of the way to the station, seen from the planet. -/
def Spec.onSight (pos los : V3) (t : ℝ) : V3 := ⟨pos.x + t * los.x, pos.y + t * los.y, pos.z + t * los.z⟩

theorem pole_frame {rot : M3} (hr : IsRotation rot.mxv) {pole : V3} (hp : pole.dot pole = 1) : (rot.mxv pole).dot (rot.mxv pole) = 1 := by rw [hr.1, hp]

/-- Whatever frame is asked for, the third coordinates of position and velocity are those along the pole, and distances, speeds and the angle between them are right. -/
theorem C220_state {rot : M3} (hr : IsRotation rot.mxv) (pos vel los pole : V3) (hs : los.dot los ≠ 0) (hp : pole.dot pole = 1)
    (hz : (rot.mxv pole).x ≠ 0 ∨ (rot.mxv pole).y ≠ 0) :
    (scState rot pos vel los (rot.mxv pole)).1.z = pole.dot pos ∧ (scState rot pos vel los (rot.mxv pole)).2.z = pole.dot vel ∧
    (scState rot pos vel los (rot.mxv pole)).1.norm = pos.norm ∧ (scState rot pos vel los (rot.mxv pole)).2.norm = vel.norm ∧
    (scState rot pos vel los (rot.mxv pole)).1.dot (scState rot pos vel los (rot.mxv pole)).2 = pos.dot vel := by
  obtain ⟨x1, -, x3, -⟩ := C80_frame los (rot.mxv pole) hs (pole_frame hr hp) hz
  refine ⟨?_, ?_, ?_, ?_, ?_⟩
  · rw [scState, x3, hr.1]
  · rw [scState, x3, hr.1]
  · rw [scState, V3.norm, V3.norm, x1.1, hr.1]
  · rw [scState, V3.norm, V3.norm, x1.1, hr.1]
  · rw [scState, x1.1, hr.1]

/-- Whatever frame is asked for, the impact radius is the least distance of the line of sight from the centre of the planet. -/
theorem C220_impact {rot : M3} (hr : IsRotation rot.mxv) (pos vel los pole : V3) (hs : los.dot los ≠ 0) (hp : pole.dot pole = 1)
    (hz : (rot.mxv pole).x ≠ 0 ∨ (rot.mxv pole).y ≠ 0) :
    IsLeast (Set.range fun t : ℝ => (onSight pos los t).norm) (impactKm rot pos vel los (rot.mxv pole)) := by
  obtain ⟨x1, -⟩ := C80_frame los (rot.mxv pole) hs (pole_frame hr hp) hz
  obtain ⟨y1, -⟩ := C80_frame (rot.mxv los) (rot.mxv pole) (by rw [hr.1]; exact hs) (pole_frame hr hp) hz
  have h := C80_impact (rot.mxv los) (rot.mxv pole) (rot.mxv pos) (by rw [hr.1]; exact hs) (pole_frame hr hp) hz
  have key : ∀ (a d a' d' : V3), a.dot a = a'.dot a' → a.dot d = a'.dot d' → d.dot d = d'.dot d' → lineDist a d ⟨0, 0, 0⟩ = lineDist a' d' ⟨0, 0, 0⟩ := by
    intro a d a' d' h1 h2 h3
    have e : ∀ a d : V3, (((V3.mk 0 0 0).sub a).sub (d.smul (((V3.mk 0 0 0).sub a).dot d / d.dot d))).dot
        (((V3.mk 0 0 0).sub a).sub (d.smul (((V3.mk 0 0 0).sub a).dot d / d.dot d))) =
        a.dot a + 2 * (-(a.dot d) / d.dot d) * a.dot d + (-(a.dot d) / d.dot d) ^ 2 * d.dot d := by
      intro a d
      have : ((V3.mk 0 0 0).sub a).dot d = -(a.dot d) := by unfold V3.sub V3.dot; ring
      rw [this]
      generalize -(a.dot d) / d.dot d = q
      unfold V3.sub V3.smul V3.dot
      ring
    unfold lineDist V3.norm
    simp only
    rw [e, e, h1, h2, h3]
  have e : impactKm rot pos vel los (rot.mxv pole) =
      lineDist (xformPcf (rot.mxv los) (rot.mxv pole) (rot.mxv pos)) (xformPcf (rot.mxv los) (rot.mxv pole) (rot.mxv los)) ⟨0, 0, 0⟩ := by
    rw [impactKm, scState, sightPcf]
    apply key
    · rw [x1.1, y1.1]
    · rw [x1.1, y1.1]
    · rw [x1.1, y1.1]
  rw [e]
  have point : ∀ t : ℝ, (V3.mk ((rot.mxv pos).x + t * (rot.mxv los).x) ((rot.mxv pos).y + t * (rot.mxv los).y) ((rot.mxv pos).z + t * (rot.mxv los).z)).norm =
      (onSight pos los t).norm := by
    intro t
    have e2 : ∀ p d : V3, (V3.mk (p.x + t * d.x) (p.y + t * d.y) (p.z + t * d.z)).dot (V3.mk (p.x + t * d.x) (p.y + t * d.y) (p.z + t * d.z)) =
        p.dot p + 2 * t * p.dot d + t ^ 2 * d.dot d := by
      intro p d; unfold V3.dot; ring
    rw [onSight, V3.norm, V3.norm, e2, e2, hr.1, hr.1, hr.1]
  simpa only [point] using h

/-- A rotation by a right angle. -/
def quarter : M3 := ⟨⟨0, 1, 0⟩, ⟨-1, 0, 0⟩, ⟨0, 0, 1⟩⟩

theorem quarter_rotation : IsRotation quarter.mxv := by
  unfold IsRotation quarter M3.mxv V3.dot V3.cross
  constructor
  · intro u v; simp only; ring
  · intro u v
    simp only [V3.mk.injEq]
    exact ⟨by ring, by ring, by ring⟩

/-- The pole of the examples: in the frame it is (0.6, 0, 0.8). -/
def examplePole : V3 := ⟨0, 0.6, 0.8⟩

theorem example_frame : quarter.mxv examplePole = ⟨0.6, 0, 0.8⟩ := by
  unfold quarter examplePole M3.mxv V3.dot
  simp only [V3.mk.injEq]
  norm_num

example : (scState quarter ⟨1, 2, 3⟩ ⟨4, 5, 6⟩ ⟨0, 1, 0⟩ (quarter.mxv examplePole)).1.z = examplePole.dot ⟨1, 2, 3⟩ :=
  (C220_state quarter_rotation ⟨1, 2, 3⟩ ⟨4, 5, 6⟩ ⟨0, 1, 0⟩ examplePole (by unfold V3.dot; norm_num) (by unfold examplePole V3.dot; norm_num)
    (by rw [example_frame]; exact .inl (by norm_num))).1

example : IsLeast (Set.range fun t : ℝ => (onSight ⟨1, 2, 3⟩ ⟨0, 1, 0⟩ t).norm) (impactKm quarter ⟨1, 2, 3⟩ ⟨4, 5, 6⟩ ⟨0, 1, 0⟩ (quarter.mxv examplePole)) :=
  C220_impact quarter_rotation ⟨1, 2, 3⟩ ⟨4, 5, 6⟩ ⟨0, 1, 0⟩ examplePole (by unfold V3.dot; norm_num) (by unfold examplePole V3.dot; norm_num)
    (by rw [example_frame]; exact .inl (by norm_num))

/-- How far the line of sight is from the plane of the first and third axes: the product of its second coordinate with that of what the code takes for it. -/
theorem sight_y {rot : M3} (los nhat : V3) (hs : los.dot los ≠ 0) (hn : nhat.dot nhat = 1) (hz : nhat.x ≠ 0 ∨ nhat.y ≠ 0) :
    (xformPcf los nhat los).x * (sightPcf rot los nhat).y = (rot.mxv los).dot (nhat.cross los) := by
  obtain ⟨x1, x2, -, x4, -⟩ := C80_frame los nhat hs hn hz
  rw [← x1.1, x1.2, x2, sightPcf]
  have : (V3.mk 0 0 1).cross (xformPcf los nhat los) = ⟨0, (xformPcf los nhat los).x, 0⟩ := by
    unfold V3.cross
    simp only [V3.mk.injEq]
    exact ⟨by rw [x4]; ring, by ring, by ring⟩
  rw [this]
  unfold V3.dot
  ring

/-- In J2000 the first axis is along the line of sight as projected on the rings.  (Full claim: in every frame; see `C221_axis_false`.) -/
theorem C221_axis_partial {rot : M3} (hid : ∀ v, rot.mxv v = v) (los pole : V3) (hs : los.dot los ≠ 0) (hp : pole.dot pole = 1) (hz : pole.x ≠ 0 ∨ pole.y ≠ 0) :
    (sightPcf rot los (rot.mxv pole)).y = 0 ∧ 0 ≤ (sightPcf rot los (rot.mxv pole)).x := by
  obtain ⟨-, -, -, x4, x5⟩ := C80_frame los pole hs hp hz
  rw [sightPcf, hid, hid]
  exact ⟨x4, x5⟩

/-- J2000 itself. -/
def same : M3 := ⟨⟨1, 0, 0⟩, ⟨0, 1, 0⟩, ⟨0, 0, 1⟩⟩

theorem same_id (v : V3) : same.mxv v = v := by
  cases v
  unfold same M3.mxv V3.dot
  simp

example : (sightPcf same ⟨1, 2, 3⟩ (same.mxv ⟨0.6, 0, 0.8⟩)).y = 0 :=
  (C221_axis_partial same_id ⟨1, 2, 3⟩ ⟨0.6, 0, 0.8⟩ (by unfold V3.dot; norm_num) (by unfold V3.dot; norm_num) (.inl (by norm_num))).1

/-- In another frame the first axis is not along the line of sight, because its direction in J2000 is used as if it were that in the frame. -/
theorem C221_axis_false : ¬ ∀ (rot : M3), IsRotation rot.mxv → ∀ (los pole : V3), los.dot los ≠ 0 → pole.dot pole = 1 → (rot.mxv pole).x ≠ 0 ∨ (rot.mxv pole).y ≠ 0 →
    (sightPcf rot los (rot.mxv pole)).y = 0 := by
  intro h
  have hs : (V3.mk 0 1 0).dot ⟨0, 1, 0⟩ ≠ 0 := by unfold V3.dot; norm_num
  have hp : examplePole.dot examplePole = 1 := by unfold examplePole V3.dot; norm_num
  have hz : (quarter.mxv examplePole).x ≠ 0 ∨ (quarter.mxv examplePole).y ≠ 0 := by rw [example_frame]; exact .inl (by norm_num)
  have h1 := h quarter quarter_rotation ⟨0, 1, 0⟩ examplePole hs hp hz
  have h2 := sight_y (rot := quarter) ⟨0, 1, 0⟩ (quarter.mxv examplePole) hs (pole_frame quarter_rotation hp) hz
  rw [h1, example_frame] at h2
  unfold quarter M3.mxv V3.cross V3.dot at h2
  norm_num at h2

end Verif.Geo
