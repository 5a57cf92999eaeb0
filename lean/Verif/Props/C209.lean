import Verif.Model.Elevation
import Mathlib.Geometry.Euclidean.Angle.Unoriented.TriangleInequality

/-!
# The elevation of the spacecraft (C209, C210)
-/
namespace Verif.Elev
open Real InnerProductGeometry

variable {V : Type*} [NormedAddCommGroup V] [InnerProductSpace ℝ V]

theorem norm_vhat {v : V} (h : v ≠ 0) : ‖vhat v‖ = 1 := by
  have : ‖v‖ ≠ 0 := by simpa using h
  simp [vhat, norm_smul, this]

theorem inner_vhat {u v : V} : inner ℝ (vhat u) (vhat v) = cos (angle u v) := by
  rw [cos_angle, vhat, vhat, real_inner_smul_left, real_inner_smul_right, div_eq_mul_inv, mul_inv]
  ring

theorem vsep_eq_angle {u v : V} (hu : u ≠ 0) (hv : v ≠ 0) : vsep u v = angle u v := by
  have h0 := angle_nonneg u v
  have hp := angle_le_pi u v
  have hc := inner_vhat (u := u) (v := v)
  have hd : ‖vhat u - vhat v‖ = 2 * sin (angle u v / 2) := by
    have h1 : ‖vhat u - vhat v‖ ^ 2 = (2 * sin (angle u v / 2)) ^ 2 := by
      rw [norm_sub_sq_real, norm_vhat hu, norm_vhat hv, hc]
      have h2 : cos (angle u v) = 1 - 2 * sin (angle u v / 2) ^ 2 := by
        conv_lhs => rw [show angle u v = 2 * (angle u v / 2) by ring]
        rw [cos_two_mul, cos_sq']; ring
      rw [h2]; ring
    exact (sq_eq_sq₀ (norm_nonneg _) (by have := sin_nonneg_of_nonneg_of_le_pi (x := angle u v / 2) (by linarith) (by linarith); linarith)).mp h1
  have hs : ‖vhat u + vhat v‖ = 2 * cos (angle u v / 2) := by
    have h1 : ‖vhat u + vhat v‖ ^ 2 = (2 * cos (angle u v / 2)) ^ 2 := by
      rw [norm_add_sq_real, norm_vhat hu, norm_vhat hv, hc]
      have h2 : cos (angle u v) = 2 * cos (angle u v / 2) ^ 2 - 1 := by
        conv_lhs => rw [show angle u v = 2 * (angle u v / 2) by ring]
        rw [cos_two_mul]
      rw [h2]; ring
    exact (sq_eq_sq₀ (norm_nonneg _) (by have := cos_nonneg_of_neg_pi_div_two_le_of_le (x := angle u v / 2) (by linarith) (by linarith); linarith)).mp h1
  unfold vsep
  rw [if_neg (by tauto), hc, hd, hs]
  split
  · rw [show 1 / 2 * (2 * sin (angle u v / 2)) = sin (angle u v / 2) by ring, arcsin_sin (by linarith) (by linarith)]; ring
  split
  · rw [show 1 / 2 * (2 * cos (angle u v / 2)) = sin (π / 2 - angle u v / 2) by rw [sin_pi_div_two_sub]; ring,
      arcsin_sin (by linarith) (by linarith)]; ring
  · have : cos (angle u v) = 0 := le_antisymm (not_lt.mp ‹_›) (not_lt.mp ‹_›)
    rw [← arccos_cos h0 hp, this, arccos_zero]

/-- The elevation above the plane at right angles to the vertical `n`, in degrees: its sine is the part of the direction along the vertical. -/
def Spec.Above (n p : V) (E : ℝ) : Prop := -90 ≤ E ∧ E ≤ 90 ∧ sin (E * (π / 180)) * (‖p‖ * ‖n‖) = inner ℝ p n

theorem above_eq {n p : V} (hn : n ≠ 0) (hp : p ≠ 0) {E : ℝ} (h : Spec.Above n p E) : E = 90 - angle p n * (180 / π) := by
  obtain ⟨h1, h2, h3⟩ := h
  have hpi := pi_pos
  have e : sin (E * (π / 180)) = cos (angle p n) := by
    rw [cos_angle, eq_div_iff (by positivity), h3]
  have e2 : E * (π / 180) = π / 2 - angle p n := by
    have : E * (π / 180) = arcsin (sin (E * (π / 180))) := by
      rw [arcsin_sin] <;> nlinarith
    rw [this, e, ← sin_pi_div_two_sub, arcsin_sin]
    · linarith [angle_le_pi p n]
    · linarith [angle_nonneg p n]
  field_simp at e2 ⊢
  linarith

theorem above_exists {n p : V} (hn : n ≠ 0) (hp : p ≠ 0) : Spec.Above n p (90 - angle p n * (180 / π)) := by
  have hpi := pi_pos
  have h0 := angle_nonneg p n
  have h1 := angle_le_pi p n
  have e : (90 - angle p n * (180 / π)) * (π / 180) = π / 2 - angle p n := by field_simp; ring
  have h2 : angle p n * (180 / π) ≤ 180 := by
    calc angle p n * (180 / π) ≤ π * (180 / π) := by gcongr
      _ = 180 := by field_simp
  have h3 : 0 ≤ angle p n * (180 / π) := by positivity
  refine ⟨by linarith, by linarith, ?_⟩
  rw [e, sin_pi_div_two_sub, cos_angle, div_mul_cancel₀ _ (by positivity)]

/-- **C209**: for a target that is not at the observer and an observer not at the centre of the Earth, the value is the elevation above the plane at right angles
to the line from the centre of the Earth; it differs from the elevation above the horizon, with vertical `n`, by no more than the angle between the two verticals. -/
theorem C209_elevation {p g n : V} (hp : p ≠ 0) (hg : g ≠ 0) (hn : n ≠ 0) :
    Spec.Above g p (elevation p g) ∧ (∀ E, Spec.Above g p E → E = elevation p g) ∧
    ∀ E, Spec.Above n p E → |elevation p g - E| ≤ angle g n * (180 / π) := by
  have hpi := pi_pos
  have e : elevation p g = 90 - angle p g * (180 / π) := by rw [elevation, vsep_eq_angle hp hg]
  refine ⟨e ▸ above_exists hg hp, fun E h => e ▸ above_eq hg hp h, fun E h => ?_⟩
  rw [e, above_eq hn hp h]
  have h1 := angle_le_angle_add_angle p g n
  have h2 := angle_le_angle_add_angle p n g
  rw [angle_comm n g] at h2
  rw [show 90 - angle p g * (180 / π) - (90 - angle p n * (180 / π)) = (angle p n - angle p g) * (180 / π) by ring, abs_mul,
    abs_of_pos (show 0 < 180 / π by positivity)]
  gcongr
  rw [abs_le]; constructor <;> linarith

/-- **C210, partial**: the value is the elevation above the horizon where the vertical points away from the centre of the Earth.  What is missing is every other
place, see `C210_horizon_false`. -/
theorem C210_horizon_partial {p g n : V} (hp : p ≠ 0) (hg : g ≠ 0) (hn : n ≠ 0) (h : angle g n = 0) : Spec.Above n p (elevation p g) := by
  have h3 := (C209_elevation hp hg hn).2.2 _ (above_exists hn hp)
  rw [h, zero_mul] at h3
  have := abs_nonpos_iff.mp h3
  rw [show elevation p g = 90 - angle p n * (180 / π) by linarith]
  exact above_exists hn hp

/-- **C210 is false**: at any other place a target in the zenith gets an elevation of less than 90 degrees: 90 degrees less the angle between the verticals. -/
theorem C210_horizon_false {g n : V} (hg : g ≠ 0) (hn : n ≠ 0) (h : angle g n ≠ 0) :
    ∃ p : V, p ≠ 0 ∧ Spec.Above n p 90 ∧ elevation p g = 90 - angle g n * (180 / π) ∧ ¬ Spec.Above n p (elevation p g) := by
  have h90 := above_exists hn hn
  rw [angle_self hn] at h90
  simp only [zero_mul, sub_zero] at h90
  have e : elevation n g = 90 - angle g n * (180 / π) := by rw [elevation, vsep_eq_angle hn hg, angle_comm]
  refine ⟨n, hn, h90, e, fun h' => ?_⟩
  have := above_eq hn hn h'
  rw [angle_self hn, e] at this
  have h2 : angle g n * (180 / π) ≠ 0 := mul_ne_zero h (by positivity)
  exact h2 (by linarith)

/-- Non-vacuity of C209 and C210: the real line, and two verticals that differ. -/
example : (3 : ℝ) ≠ 0 ∧ (2 : ℝ) ≠ 0 ∧ angle (2 : ℝ) 1 = 0 ∧ angle (2 : ℝ) (-1) ≠ 0 := by
  refine ⟨by norm_num, by norm_num, ?_, ?_⟩
  · rw [angle_eq_zero_iff]; exact ⟨by norm_num, 1 / 2, by norm_num, by norm_num⟩
  · have : angle (2 : ℝ) (-1) = π := by rw [angle_eq_pi_iff]; exact ⟨by norm_num, -(1 / 2), by norm_num, by norm_num⟩
    rw [this]; exact pi_ne_zero

end Verif.Elev
