import Verif.Spec.GeoReal
import Mathlib.Tactic.FieldSimp
import Mathlib.Tactic.LinearCombination
import Mathlib.Tactic.Linarith

/-!
# C77, C78: Fresnel scale, effective opening angle
-/
namespace Verif.Geo
open Real Spec

/-- **C77** For all distances, frequencies, opening angles and azimuths the result is the Fresnel scale: along each radius the
least phase, over all points along the orbit, is `π / 2 · (x / F)²`.  It is positive. -/
theorem C77_fresnel (dist f bDeg phiDeg : ℝ) (hd : 0 < dist) (hf : 0 < f) (hb : sin (toRad bDeg) ≠ 0) :
    0 < calcF dist f bDeg phiDeg ∧ ∀ x, IsLeast (Set.range fun y => phase2 (lightSpeed / f) dist (toRad bDeg) (toRad phiDeg) x y)
      (π / 2 * (x / calcF dist f bDeg phiDeg) ^ 2) := by
  have hl : 0 < lightSpeed / f := by
    have : (0 : ℝ) < lightSpeed := by unfold lightSpeed; norm_num
    positivity
  set l := lightSpeed / f with hlam
  set B := toRad bDeg with hB
  set p := toRad phiDeg with hp
  have hs : 0 < sin B ^ 2 := by positivity
  have e1 : sin B ^ 2 + cos B ^ 2 = 1 := sin_sq_add_cos_sq B
  have e2 : sin p ^ 2 + cos p ^ 2 = 1 := sin_sq_add_cos_sq p
  set q := 1 - cos B ^ 2 * sin p ^ 2 with hq
  have hq0 : 0 < q := by
    have : cos B ^ 2 * sin p ^ 2 ≤ cos B ^ 2 := by
      have h1 : sin p ^ 2 ≤ 1 := by nlinarith [sq_nonneg (cos p)]
      nlinarith [sq_nonneg (cos B)]
    rw [hq]; linarith
  have hpos : 0 < 0.5 * l * dist * q / sin B ^ 2 := by
    have : (0 : ℝ) < 0.5 := by norm_num
    positivity
  have hF : calcF dist f bDeg phiDeg = √(0.5 * l * dist * q / sin B ^ 2) := by
    unfold calcF
    rw [← hlam, ← hB, ← hp]
  have hF2 : calcF dist f bDeg phiDeg ^ 2 = 0.5 * l * dist * q / sin B ^ 2 := by
    rw [hF, sq_sqrt hpos.le]
  have hF0 : 0 < calcF dist f bDeg phiDeg := by rw [hF]; exact sqrt_pos.mpr hpos
  refine ⟨hF0, fun x => ?_⟩
  have hval : π / 2 * (x / calcF dist f bDeg phiDeg) ^ 2 = π / (l * dist) * (x ^ 2 * sin B ^ 2 / q) := by
    rw [div_pow, hF2]
    field_simp
    norm_num
    ring
  have hform : ∀ y, phase2 l dist B p x y = π / (l * dist) * (x ^ 2 * sin B ^ 2 / q) +
      π / (l * dist) * (q * (y + cos B ^ 2 * cos p * sin p * x / q) ^ 2) := by
    intro y
    unfold phase2
    have : x ^ 2 + y ^ 2 - (cos B * cos p * x - cos B * sin p * y) ^ 2 =
        x ^ 2 * sin B ^ 2 / q + q * (y + cos B ^ 2 * cos p * sin p * x / q) ^ 2 := by
      have hqn : q ≠ 0 := hq0.ne'
      have hx : q * (y + cos B ^ 2 * cos p * sin p * x / q) ^ 2 =
          q * y ^ 2 + 2 * (cos B ^ 2 * cos p * sin p * x) * y + (cos B ^ 2 * cos p * sin p * x) ^ 2 / q := by
        field_simp
        ring
      have hy : x ^ 2 * sin B ^ 2 / q + (cos B ^ 2 * cos p * sin p * x) ^ 2 / q = x ^ 2 * (1 - cos B ^ 2 * cos p ^ 2) := by
        rw [← add_div, div_eq_iff hqn, hq]
        have hsb : sin B ^ 2 = 1 - cos B ^ 2 := by linarith
        have hcp : cos p ^ 2 = 1 - sin p ^ 2 := by linarith
        have : (cos B ^ 2 * cos p * sin p * x) ^ 2 = (cos B ^ 2) ^ 2 * cos p ^ 2 * sin p ^ 2 * x ^ 2 := by ring
        rw [this, hsb, hcp]
        ring
      rw [hx]
      have : x ^ 2 * sin B ^ 2 / q + (q * y ^ 2 + 2 * (cos B ^ 2 * cos p * sin p * x) * y + (cos B ^ 2 * cos p * sin p * x) ^ 2 / q) =
          x ^ 2 * (1 - cos B ^ 2 * cos p ^ 2) + q * y ^ 2 + 2 * (cos B ^ 2 * cos p * sin p * x) * y := by linarith
      rw [this, hq]
      ring
    rw [this]
    field_simp
  rw [hval]
  constructor
  · refine ⟨-(cos B ^ 2 * cos p * sin p * x / q), ?_⟩
    simp only [hform]
    ring
  · rintro _ ⟨y, rfl⟩
    simp only [hform]
    have : 0 ≤ π / (l * dist) * (q * (y + cos B ^ 2 * cos p * sin p * x / q) ^ 2) := by
      have := pi_pos
      positivity
    linarith

example : 0 < calcF 200000 8.4e9 30 45 := by
  refine (C77_fresnel 200000 8.4e9 30 45 (by norm_num) (by norm_num) ?_).1
  have : toRad 30 = π / 6 := by unfold toRad; ring
  rw [this, sin_pi_div_six]; norm_num

/-- The distance between two light times. -/
theorem C77_distance (t1 t2 : ℝ) : calcD t1 t2 = calcD t2 t1 ∧ 0 ≤ calcD t1 t2 ∧ (t1 ≤ t2 → t1 + calcD t1 t2 / 299792.458 = t2) := by
  unfold calcD lightSpeed
  refine ⟨by rw [abs_sub_comm], by positivity, fun h => ?_⟩
  rw [abs_of_nonpos (by linarith)]
  norm_num

example : calcD 10 12 = 599584.916 := by
  have := (C77_distance 10 12).2.2 (by norm_num)
  have h : calcD 10 12 / 299792.458 = 2 := by linarith
  rw [div_eq_iff (by norm_num)] at h
  rw [h]; norm_num

theorem tan_arctan2 (y x : ℝ) : tan (arctan2 y x) = y / x := by
  unfold arctan2
  rw [Complex.tan_arg]

/-- **C78** (partial) The effective opening angle, taken as radians, is the angle whose tangent is `tan B / cos φ`, and the
enhancement factor is `cos φ / tan B`, for all angles.  Missing: the documented unit, see `C78_degrees_false`. -/
theorem C78_effective_partial (bDeg phiDeg : ℝ) :
    (cos (toRad phiDeg) ≠ 0 → tan (calcBEff bDeg phiDeg) = tan (toRad bDeg) / cos (toRad phiDeg)) ∧
    calcBeta bDeg phiDeg = cos (toRad phiDeg) / tan (toRad bDeg) ∧
    -π < calcBEff bDeg phiDeg ∧ calcBEff bDeg phiDeg ≤ π := by
  refine ⟨fun _ => tan_arctan2 _ _, ?_, Complex.neg_pi_lt_arg _, Complex.arg_le_pi _⟩
  unfold calcBeta calcBEff arctan2
  rw [Complex.tan_arg]
  simp

example : calcBeta 45 60 = 1 / 2 := by
  rw [(C78_effective_partial 45 60).2.1]
  have a : toRad 60 = π / 3 := by unfold toRad; ring
  have b : toRad 45 = π / 4 := by unfold toRad; ring
  rw [a, b, cos_pi_div_three, tan_pi_div_four]; norm_num

/-- **C78** is false in degrees: at azimuth 0 the effective angle is the opening angle, but the result is `π / 180` times it,
for every opening angle between -90° and 90°. -/
theorem C78_degrees_false (bDeg : ℝ) (h1 : -90 < bDeg) (h2 : bDeg < 90) :
    calcBEff bDeg 0 = bDeg * (π / 180) ∧ (bDeg ≠ 0 → calcBEff bDeg 0 ≠ bDeg) := by
  have hp := pi_pos
  have key : calcBEff bDeg 0 = bDeg * (π / 180) := by
    unfold calcBEff arctan2
    have e0 : toRad 0 = 0 := by unfold toRad; ring
    rw [e0, cos_zero]
    have hr : -(π / 2) < toRad bDeg ∧ toRad bDeg < π / 2 := by
      unfold toRad
      constructor <;> nlinarith
    have hc : 0 < cos (toRad bDeg) := cos_pos_of_mem_Ioo ⟨hr.1, hr.2⟩
    have : (⟨1, tan (toRad bDeg)⟩ : ℂ) = ((1 / cos (toRad bDeg) : ℝ) : ℂ) * (Complex.cos (toRad bDeg) + Complex.sin (toRad bDeg) * Complex.I) := by
      apply Complex.ext
      · rw [Complex.re_ofReal_mul]
        simp [← Complex.ofReal_cos, ← Complex.ofReal_sin]
        rw [inv_mul_cancel₀ hc.ne']
      · rw [Complex.im_ofReal_mul, tan_eq_sin_div_cos]
        simp [← Complex.ofReal_cos, ← Complex.ofReal_sin]
        ring
    rw [this, Complex.arg_mul_cos_add_sin_mul_I (by positivity) ⟨by linarith, by linarith⟩]
    rfl
  refine ⟨key, fun h0 h => ?_⟩
  rw [key] at h
  have h4 := pi_le_four
  have : bDeg * (π / 180 - 1) = 0 := by linarith
  rcases mul_eq_zero.mp this with h | h
  · exact h0 h
  · linarith

example : calcBEff 20 0 ≠ 20 := (C78_degrees_false 20 (by norm_num) (by norm_num)).2 (by norm_num)

end Verif.Geo
