import Verif.Model.SkyView

/-!
# The view from Earth (C204, C205, C206)
-/
namespace Verif.Sky
open Real

/-- The direction with a right ascension and a declination. -/
noncomputable def Spec.dir (ra dec : ℝ) : V3 := ⟨cos dec * cos ra, cos dec * sin ra, sin dec⟩

/-- The rows of a matrix of the axes of a frame: unit vectors at right angles. -/
def Spec.Frame (m : M3) : Prop :=
  dot m.r1 m.r1 = 1 ∧ dot m.r2 m.r2 = 1 ∧ dot m.r3 m.r3 = 1 ∧ dot m.r1 m.r2 = 0 ∧ dot m.r1 m.r3 = 0 ∧ dot m.r2 m.r3 = 0

/-- The projection of a circle of radius `R` in a plane that is seen under the angle `B`. -/
def Spec.OnRing (B R : ℝ) (p : ℝ × ℝ) : Prop := p.1 ^ 2 * sin B ^ 2 + p.2 ^ 2 = R ^ 2 * sin B ^ 2

theorem rad_deg (x : ℝ) : x * (180 / π) * (π / 180) = x := by
  field_simp

/-- From the frame of the Earth to that of the sky. -/
noncomputable def eeq2sky (a d P : ℝ) (v : V3) : V3 := (((rot3 (-a)).mul (rot2 d)).mul (rot1 P)).tr.app v

theorem eeq2sky_eq (a d P : ℝ) (v : V3) : eeq2sky a d P v =
    ⟨cos d * (cos a * v.x + sin a * v.y) + sin d * v.z,
     cos P * (-sin a * v.x + cos a * v.y) - sin P * (-sin d * (cos a * v.x + sin a * v.y) + cos d * v.z),
     sin P * (-sin a * v.x + cos a * v.y) + cos P * (-sin d * (cos a * v.x + sin a * v.y) + cos d * v.z)⟩ := by
  simp only [eeq2sky, M3.app, M3.tr, M3.mul, dot, rot1, rot2, rot3, cos_neg, sin_neg]
  ext <;> simp only <;> ring

theorem eeq2sky_dot (a d P : ℝ) (u v : V3) : dot (eeq2sky a d P u) (eeq2sky a d P v) = dot u v := by
  have ha := sin_sq_add_cos_sq a
  have hd := sin_sq_add_cos_sq d
  have hP := sin_sq_add_cos_sq P
  rw [eeq2sky_eq, eeq2sky_eq]
  simp only [dot]
  set p := cos a * u.x + sin a * u.y with hp
  set q := cos a * v.x + sin a * v.y with hq
  set r := -sin a * u.x + cos a * u.y with hr
  set s := -sin a * v.x + cos a * v.y with hs
  have h1 : p * q + r * s = u.x * v.x + u.y * v.y := by
    rw [hp, hq, hr, hs]; linear_combination (u.x * v.x + u.y * v.y) * ha
  linear_combination h1 + (p * q + u.z * v.z) * hd + (r * s + (-sin d * p + cos d * u.z) * (-sin d * q + cos d * v.z)) * hP

theorem mul_app (a b : M3) (v : V3) : (a.mul b).app v = a.app (b.app v) := by
  simp only [M3.app, M3.mul, M3.tr, dot]
  ext <;> simp only <;> ring

theorem peq2sky_app (m : M3) (rap decp ra dec : ℝ) (v : V3) : (peq2sky m rap decp ra dec).app v =
    eeq2sky ra dec ((calcBp (rap * (180 / π)) (decp * (180 / π)) (ra * (180 / π)) (dec * (180 / π))).2 * (π / 180)) (m.tr.app v) := by
  simp only [peq2sky, mul_app, eeq2sky]

theorem unit_three (ap dp a d : ℝ) : (cos dp * cos d * cos (a - ap) + sin dp * sin d) ^ 2 + (cos dp * sin (a - ap)) ^ 2 +
    (-cos dp * sin d * cos (a - ap) + sin dp * cos d) ^ 2 = 1 := by
  have h1 := sin_sq_add_cos_sq dp
  have h2 := sin_sq_add_cos_sq d
  have h3 := sin_sq_add_cos_sq (a - ap)
  linear_combination (cos dp ^ 2 * cos (a - ap) ^ 2 + sin dp ^ 2) * h2 + cos dp ^ 2 * h3 + h1

theorem neg_sin_bRad (ap dp a d : ℝ) : -sin (bRad ap dp a d) = cos dp * cos d * cos (a - ap) + sin dp * sin d := by
  have hb : |cos dp * cos d * cos (a - ap) + sin dp * sin d| ≤ 1 := by
    rw [← sq_le_one_iff_abs_le_one]
    nlinarith [unit_three ap dp a d, sq_nonneg (cos dp * sin (a - ap)), sq_nonneg (-cos dp * sin d * cos (a - ap) + sin dp * cos d)]
  simp only [bRad, calcBp, rad_deg]
  rw [div_mul_cancel₀ _ (by positivity), sin_arcsin]
  · ring
  · have := (abs_le.mp hb).2; linarith
  · have := (abs_le.mp hb).1; linarith

/-- The denominator of the tangent of `P`: the component of the pole along the north of the sky. -/
noncomputable def north (ap dp a d : ℝ) : ℝ := -cos dp * sin d * cos (a - ap) + sin dp * cos d

/-- Where the pole is in the frame of the sky. -/
theorem pole_sky (ap dp a d : ℝ) (hn : north ap dp a d ≠ 0) : ∃ z, z * north ap dp a d > 0 ∧ z ^ 2 = cos (bRad ap dp a d) ^ 2 ∧
    eeq2sky a d ((calcBp (ap * (180 / π)) (dp * (180 / π)) (a * (180 / π)) (d * (180 / π))).2 * (π / 180)) (Spec.dir ap dp) =
      ⟨-sin (bRad ap dp a d), 0, z⟩ := by
  set P := (calcBp (ap * (180 / π)) (dp * (180 / π)) (a * (180 / π)) (d * (180 / π))).2 * (π / 180) with hP
  have hP' : P = arctan (-cos dp * sin (a - ap) / north ap dp a d) := by
    rw [hP]; simp only [calcBp, rad_deg, north]; rw [div_mul_cancel₀ _ (by positivity)]
  have hc : 0 < cos P := by rw [hP']; exact cos_arctan_pos _
  have ht : sin P * north ap dp a d = cos P * (-cos dp * sin (a - ap)) := by
    have h := tan_arctan (-cos dp * sin (a - ap) / north ap dp a d)
    rw [← hP', tan_eq_sin_div_cos] at h
    field_simp at h
    linarith
  have hx : eeq2sky a d P (Spec.dir ap dp) = ⟨cos dp * cos d * cos (a - ap) + sin dp * sin d,
      cos P * (-cos dp * sin (a - ap)) - sin P * north ap dp a d, sin P * (-cos dp * sin (a - ap)) + cos P * north ap dp a d⟩ := by
    rw [eeq2sky_eq]
    simp only [Spec.dir, north, cos_sub, sin_sub]
    ext <;> simp only <;> ring
  have hs := sin_sq_add_cos_sq P
  refine ⟨sin P * (-cos dp * sin (a - ap)) + cos P * north ap dp a d, ?_, ?_, ?_⟩
  · have h1 : cos P * ((sin P * (-cos dp * sin (a - ap)) + cos P * north ap dp a d) * north ap dp a d) = north ap dp a d ^ 2 := by
      linear_combination (-sin P * north ap dp a d) * ht + north ap dp a d ^ 2 * hs
    have h2 : 0 < north ap dp a d ^ 2 := by positivity
    rw [← h1] at h2
    exact (pos_iff_pos_of_mul_pos h2).mp hc
  · have h0 := neg_sin_bRad ap dp a d
    have h1 := unit_three ap dp a d
    have h2 := sin_sq_add_cos_sq (bRad ap dp a d)
    have h3 : north ap dp a d = -cos dp * sin d * cos (a - ap) + sin dp * cos d := rfl
    rw [← h3, ← h0] at h1
    have h4 : (sin P * (-cos dp * sin (a - ap)) + cos P * north ap dp a d) ^ 2 +
        (cos P * (-cos dp * sin (a - ap)) - sin P * north ap dp a d) ^ 2 = (cos dp * sin (a - ap)) ^ 2 + north ap dp a d ^ 2 := by
      linear_combination ((cos dp * sin (a - ap)) ^ 2 + north ap dp a d ^ 2) * hs
    have h5 : cos P * (-cos dp * sin (a - ap)) - sin P * north ap dp a d = 0 := by linarith
    rw [h5] at h4
    linear_combination h4 + h1 - h2
  · rw [hx, neg_sin_bRad, ht]; simp

theorem frame_tr {m : M3} (h : Spec.Frame m) (u v : V3) : dot (m.tr.app u) (m.tr.app v) = dot u v := by
  obtain ⟨h1, h2, h3, h4, h5, h6⟩ := h
  simp only [dot, M3.tr, M3.app] at *
  linear_combination (u.x * v.x) * h1 + u.y * v.y * h2 + u.z * v.z * h3 + (u.x * v.y + u.y * v.x) * h4 + (u.x * v.z + u.z * v.x) * h5 +
    (u.y * v.z + u.z * v.y) * h6

/-- **C204**: in the view from Earth the direction to the planet is the line of sight; the pole is above or below the centre of the picture; a point
of a ring of radius `R` is drawn on the projection of this ring under the opening angle, with its distance along the line of sight being the height of
the drawn point times the cotangent of the opening angle. -/
theorem C204_view (m : M3) (ap dp a d : ℝ) (hm : Spec.Frame m) (hp : m.r3 = Spec.dir ap dp) (hn : north ap dp a d ≠ 0) :
    let M := peq2sky m ap dp a d
    let B := bRad ap dp a d
    (∀ v : V3, dot (M.app v) (M.app v) = dot v v) ∧
    (∀ v : V3, (M.app v).x = dot (m.tr.app v) (Spec.dir a d)) ∧
    ((M.app ⟨0, 0, 1⟩).x = -sin B ∧ (M.app ⟨0, 0, 1⟩).y = 0 ∧ 0 < (M.app ⟨0, 0, 1⟩).z * north ap dp a d) ∧
    (∀ R t, Spec.OnRing B R (ringPoint M R t).1) ∧
    (∀ R t, ∃ s : ℝ, s ^ 2 = cos B ^ 2 ∧ (ringPoint M R t).2 * sin B = s * (ringPoint M R t).1.2) := by
  intro M B
  have hv : ∀ v, M.app v = eeq2sky a d _ (m.tr.app v) := peq2sky_app m ap dp a d
  have hiso : ∀ u v : V3, dot (M.app u) (M.app v) = dot u v := fun u v => by rw [hv, hv, eeq2sky_dot, frame_tr hm]
  have hpole : m.tr.app ⟨0, 0, 1⟩ = Spec.dir ap dp := by
    rw [← hp]; simp [M3.app, M3.tr, dot]
  obtain ⟨z, hz, hz2, he⟩ := pole_sky ap dp a d hn
  have hM : M.app ⟨0, 0, 1⟩ = ⟨-sin B, 0, z⟩ := by rw [hv, hpole]; exact he
  have hring : ∀ R t, (ringPoint M R t).2 * sin B = z * (ringPoint M R t).1.2 ∧ Spec.OnRing B R (ringPoint M R t).1 := by
    intro R t
    have h1 := hiso ⟨R * cos t, R * sin t, 0⟩ ⟨0, 0, 1⟩
    have h2 := hiso ⟨R * cos t, R * sin t, 0⟩ ⟨R * cos t, R * sin t, 0⟩
    rw [hM] at h1
    simp only [ringPoint, Spec.OnRing]
    generalize M.app ⟨R * cos t, R * sin t, 0⟩ = w at *
    simp only [dot] at h1 h2
    have ht := sin_sq_add_cos_sq t
    have hB := sin_sq_add_cos_sq B
    have h3 : w.x * sin B = z * w.z := by linarith
    have h4 : w.x * w.x + w.y * w.y + w.z * w.z = R ^ 2 := by rw [h2]; linear_combination R ^ 2 * ht
    have h5 : w.x ^ 2 * sin B ^ 2 = cos B ^ 2 * w.z ^ 2 := by
      have : (w.x * sin B) ^ 2 = (z * w.z) ^ 2 := by rw [h3]
      rw [mul_pow, mul_pow, hz2] at this; exact this
    exact ⟨h3, by linear_combination sin B ^ 2 * h4 - h5 - w.z ^ 2 * hB⟩
  refine ⟨fun v => hiso v v, ?_, by rw [hM]; exact ⟨rfl, rfl, hz⟩, fun R t => (hring R t).2, fun R t => ⟨z, hz2, (hring R t).1⟩⟩
  intro v
  rw [hv, eeq2sky_eq]
  simp only [Spec.dir, dot]
  ring

/-- The vector product. -/
def Spec.cross (u v : V3) : V3 := ⟨u.y * v.z - u.z * v.y, u.z * v.x - u.x * v.z, u.x * v.y - u.y * v.x⟩

/-- The picture is not mirrored: to the right and upwards are two directions at right angles, and their vector product points from the planet to the Earth. -/
theorem C204_orientation (m : M3) (ap dp a d : ℝ) : ∃ right up : V3, dot right right = 1 ∧ dot up up = 1 ∧ dot right up = 0 ∧
    Spec.cross right up = ⟨-(Spec.dir a d).x, -(Spec.dir a d).y, -(Spec.dir a d).z⟩ ∧
    ∀ R t, (ringPoint (peq2sky m ap dp a d) R t).1 =
      (dot (m.tr.app ⟨R * cos t, R * sin t, 0⟩) right, dot (m.tr.app ⟨R * cos t, R * sin t, 0⟩) up) := by
  have ha := sin_sq_add_cos_sq a
  have hd := sin_sq_add_cos_sq d
  obtain ⟨P, hP⟩ : ∃ P, P = (calcBp (ap * (180 / π)) (dp * (180 / π)) (a * (180 / π)) (d * (180 / π))).2 * (π / 180) := ⟨_, rfl⟩
  have hp := sin_sq_add_cos_sq P
  refine ⟨⟨cos P * sin a - sin P * sin d * cos a, -cos P * cos a - sin P * sin d * sin a, sin P * cos d⟩,
    ⟨-sin P * sin a - cos P * sin d * cos a, sin P * cos a - cos P * sin d * sin a, cos P * cos d⟩, ?_, ?_, ?_, ?_, ?_⟩
  · simp only [dot]
    linear_combination (cos P ^ 2 + sin P ^ 2 * sin d ^ 2) * ha + sin P ^ 2 * hd + hp
  · simp only [dot]
    linear_combination (sin P ^ 2 + cos P ^ 2 * sin d ^ 2) * ha + cos P ^ 2 * hd + hp
  · simp only [dot]
    linear_combination (-cos P * sin P + sin P * cos P * sin d ^ 2) * ha + sin P * cos P * hd
  · simp only [Spec.cross, Spec.dir]
    ext
    · linear_combination (-cos d * cos a) * hp
    · linear_combination (-cos d * sin a) * hp
    · linear_combination (-sin d * (cos P ^ 2 + sin P ^ 2)) * ha + (-sin d) * hp
  · intro R t
    simp only [ringPoint, peq2sky_app, ← hP]
    generalize m.tr.app ⟨R * cos t, R * sin t, 0⟩ = v
    rw [eeq2sky_eq]
    simp only [dot, Prod.mk.injEq]
    constructor <;> ring

/-- Non-vacuity of C204: the pole of the Earth and a planet at 30 degrees of declination. -/
example : Spec.Frame ⟨⟨1, 0, 0⟩, ⟨0, 1, 0⟩, ⟨0, 0, 1⟩⟩ ∧ (⟨0, 0, 1⟩ : V3) = Spec.dir 0 (π / 2) ∧ north 0 (π / 2) 1 (π / 6) ≠ 0 := by
  refine ⟨by simp [Spec.Frame, dot], by simp [Spec.dir], ?_⟩
  simp [north]

/-- **C205, partial**: a point of the track is drawn on the projection of the ring of its radius when it is at the angle 90 or 270 degrees, or when
the ring is seen from its plane.  What is missing is every other point, see `C205_track_false`. -/
theorem C205_track_partial (B rho phi : ℝ) (h : cos ((phi - 90) * (π / 180)) = 0 ∨ sin B = 0) : Spec.OnRing B rho (trackPoint B rho phi) := by
  have hs := sin_sq_add_cos_sq ((phi - 90) * (π / 180))
  simp only [Spec.OnRing, trackPoint]
  rcases h with h | h
  · rw [h] at hs ⊢; linear_combination rho ^ 2 * sin B ^ 2 * hs
  · rw [h]; ring

/-- **C205 is false**: for every opening angle other than 0 and every radius, any other point of the track is drawn inside the projection of the ring
of its radius. -/
theorem C205_track_false (B rho phi : ℝ) (hr : rho ≠ 0) (hB : sin B ≠ 0) (hc : cos ((phi - 90) * (π / 180)) ≠ 0) :
    ¬ Spec.OnRing B rho (trackPoint B rho phi) ∧
    (trackPoint B rho phi).1 ^ 2 * sin B ^ 2 + (trackPoint B rho phi).2 ^ 2 < rho ^ 2 * sin B ^ 2 := by
  have hs := sin_sq_add_cos_sq ((phi - 90) * (π / 180))
  have hb := sin_sq_add_cos_sq B
  have key : (trackPoint B rho phi).1 ^ 2 * sin B ^ 2 + (trackPoint B rho phi).2 ^ 2 =
      rho ^ 2 * sin B ^ 2 - (rho * sin B * cos ((phi - 90) * (π / 180)) * sin B) ^ 2 := by
    simp only [trackPoint]
    linear_combination rho ^ 2 * sin B ^ 2 * hs + rho ^ 2 * sin B ^ 2 * cos ((phi - 90) * (π / 180)) ^ 2 * hb
  have hpos : 0 < (rho * sin B * cos ((phi - 90) * (π / 180)) * sin B) ^ 2 := by positivity
  constructor
  · intro h; simp only [Spec.OnRing] at h; linarith
  · linarith

/-- Non-vacuity of C205. -/
example : (100000 : ℝ) ≠ 0 ∧ sin (π / 6) ≠ 0 ∧ cos (((90 : ℝ) - 90) * (π / 180)) ≠ 0 := by
  norm_num

/-- The points that are kept, with their times, and whether each is in the list. -/
def Spec.hidden (rho t ionos : List ℚ) : List Bool :=
  ((rho.zip t).filter fun p => decide (p.1 ≤ 150000)).map fun p => decide (p.2 ∈ ionos)

/-- **C206, partial**: the points taken for blocked are those whose times are in the list of ionospheric blocking, when no point beyond 150000 km comes
before one that is kept.  What is missing is a profile that begins beyond 150000 km, see `C206_blocked_false`. -/
theorem C206_blocked_partial (rho t ionos : List ℚ) (hl : rho.length = t.length)
    (h : rho.Pairwise fun a b => b ≤ 150000 → a ≤ 150000) : blocked rho t ionos = Spec.hidden rho t ionos := by
  induction rho generalizing t with
  | nil => simp [blocked, Spec.hidden]
  | cons r rs ih =>
    cases t with
    | nil => simp at hl
    | cons x xs =>
      rw [List.pairwise_cons] at h
      by_cases hr : r ≤ 150000
      · have := ih xs (by simpa using hl) h.2
        simp only [blocked, Spec.hidden, List.zip_cons_cons, List.filter_cons, hr, decide_true, if_true, List.map_cons, List.length_cons,
          List.range_succ_eq_map, List.map_map] at this ⊢
        rw [← this]
        simp [Function.comp_def]
      · have hall : ∀ b ∈ rs, ¬ b ≤ 150000 := fun b hb hb' => hr (h.1 b hb hb')
        have h1 : rs.filter (fun r => decide (r ≤ 150000)) = [] := by
          rw [List.filter_eq_nil_iff]; simpa using hall
        have h2 : (rs.zip xs).filter (fun p => decide (p.1 ≤ 150000)) = [] := by
          rw [List.filter_eq_nil_iff]
          intro p hp
          simpa using hall p.1 (List.of_mem_zip hp).1
        simp [blocked, Spec.hidden, hr, h1, h2]

/-- Non-vacuity of C206. -/
example : ([75000, 140000, 160000] : List ℚ).Pairwise (fun a b => b ≤ 150000 → a ≤ 150000) ∧
    blocked [75000, 140000, 160000] [1, 2, 3] [2] = [false, true] := by
  constructor
  · simp; norm_num
  · decide +kernel

/-- **C206 is false**: of an ingress that begins beyond 150000 km the wrong points are drawn as blocked. -/
theorem C206_blocked_false : blocked [160000, 140000, 100000] [1, 2, 3] [2] = [false, true] ∧
    Spec.hidden [160000, 140000, 100000] [1, 2, 3] [2] = [true, false] := by
  decide +kernel

/-- Inside the outline of a spheroid with these radii that is seen under the angle `B`. -/
def Spec.Inside (B Re Rp : ℝ) (p : ℝ × ℝ) : Prop :=
  p.1 ^ 2 * ((Re * sin B) ^ 2 + (Rp * cos B) ^ 2) + p.2 ^ 2 * Re ^ 2 ≤ Re ^ 2 * ((Re * sin B) ^ 2 + (Rp * cos B) ^ 2)

/-- A point of a spheroid is drawn inside the outline of this spheroid. -/
theorem spheroid_inside (m : M3) (ap dp a d Re Q lat t : ℝ) (hm : Spec.Frame m) (hp : m.r3 = Spec.dir ap dp) (hn : north ap dp a d ≠ 0) :
    let w := (peq2sky m ap dp a d).app ⟨Re * cos lat * cos t, Re * cos lat * sin t, Q * sin lat⟩
    Spec.Inside (bRad ap dp a d) Re Q (-w.y, w.z) := by
  intro w
  have hw : w = (peq2sky m ap dp a d).app ⟨Re * cos lat * cos t, Re * cos lat * sin t, Q * sin lat⟩ := rfl
  clear_value w
  set M := peq2sky m ap dp a d
  set B := bRad ap dp a d with hB0
  have hiso : ∀ u v : V3, dot (M.app u) (M.app v) = dot u v := fun u v => by
    rw [peq2sky_app, peq2sky_app, eeq2sky_dot, frame_tr hm]
  have hpole : m.tr.app ⟨0, 0, 1⟩ = Spec.dir ap dp := by
    rw [← hp]; simp [M3.app, M3.tr, dot]
  obtain ⟨z, -, hz2, he⟩ := pole_sky ap dp a d hn
  have hM : M.app ⟨0, 0, 1⟩ = ⟨-sin B, 0, z⟩ := by rw [peq2sky_app, hpole]; exact he
  have h1 := hiso ⟨Re * cos lat * cos t, Re * cos lat * sin t, Q * sin lat⟩ ⟨0, 0, 1⟩
  have h2 := hiso ⟨Re * cos lat * cos t, Re * cos lat * sin t, Q * sin lat⟩ ⟨Re * cos lat * cos t, Re * cos lat * sin t, Q * sin lat⟩
  rw [hM, ← hw] at h1
  rw [← hw] at h2
  simp only [dot] at h1 h2
  have hB := sin_sq_add_cos_sq B
  rw [← hB0] at hz2
  have ht := sin_sq_add_cos_sq t
  have hl := sin_sq_add_cos_sq lat
  obtain ⟨s, hs1, hs2⟩ : ∃ s, w.z = sin B * s + z * (Q * sin lat) ∧ w.x = z * s - sin B * (Q * sin lat) := by
    refine ⟨z * w.x + sin B * w.z, ?_, ?_⟩
    · linear_combination z * h1 - w.z * hB - w.z * hz2
    · linear_combination (-sin B) * h1 - w.x * hB - w.x * hz2
  have h3 : w.y ^ 2 + s ^ 2 = Re ^ 2 * cos lat ^ 2 := by
    rw [hs1, hs2] at h2
    linear_combination h2 + Re ^ 2 * cos lat ^ 2 * ht - (s ^ 2 + (Q * sin lat) ^ 2) * (hz2 + hB)
  simp only [Spec.Inside]
  rw [hs1, show (Q * cos B) ^ 2 = (Q * z) ^ 2 by rw [mul_pow, mul_pow, hz2]]
  have h4 : Re ^ 2 * ((Re * sin B) ^ 2 + (Q * z) ^ 2) - ((-w.y) ^ 2 * ((Re * sin B) ^ 2 + (Q * z) ^ 2) +
      (sin B * s + z * (Q * sin lat)) ^ 2 * Re ^ 2) = (Re * sin B * (Re * sin lat) - Q * z * s) ^ 2 := by
    linear_combination (-(Re * sin B) ^ 2 - (Q * z) ^ 2) * h3 - (Re ^ 2 * ((Re * sin B) ^ 2 + (Q * z) ^ 2)) * hl
  nlinarith [sq_nonneg (Re * sin B * (Re * sin lat) - Q * z * s)]

/-- **C207, partial**: the points of the circles of latitude and of the meridians are drawn inside the outline of a spheroid whose polar radius is
`Rpsky`, which is that of the planet when the planet is a sphere or is seen from the plane of its equator.  What is missing is any other planet,
see `C207_lines_false`. -/
theorem C207_lines_partial (m : M3) (ap dp a d Re Rp lat t : ℝ) (hm : Spec.Frame m) (hp : m.r3 = Spec.dir ap dp) (hn : north ap dp a d ≠ 0)
    (hr : 0 ≤ Rp) :
    Spec.Inside (bRad ap dp a d) Re (rpSky (bRad ap dp a d) Re Rp) (bodyPoint (peq2sky m ap dp a d) (bRad ap dp a d) Re Rp lat t).1 ∧
    (Re = Rp ∨ sin (bRad ap dp a d) = 0 →
      rpSky (bRad ap dp a d) Re Rp = Rp ∧
      Spec.Inside (bRad ap dp a d) Re Rp (bodyPoint (peq2sky m ap dp a d) (bRad ap dp a d) Re Rp lat t).1) := by
  have h := spheroid_inside m ap dp a d Re (rpSky (bRad ap dp a d) Re Rp) lat t hm hp hn
  refine ⟨h, fun h' => ?_⟩
  have hB := sin_sq_add_cos_sq (bRad ap dp a d)
  have e : rpSky (bRad ap dp a d) Re Rp = Rp := by
    have : (Re * sin (bRad ap dp a d)) ^ 2 + (Rp * cos (bRad ap dp a d)) ^ 2 = Rp ^ 2 := by
      rcases h' with h' | h'
      · rw [h']; linear_combination Rp ^ 2 * hB
      · rw [h'] at hB ⊢; linear_combination Rp ^ 2 * hB
    rw [rpSky, this, sqrt_sq hr]
  refine ⟨e, ?_⟩
  simpa only [bodyPoint, e] using h

/-- Non-vacuity of C207: a sphere, seen from a declination of 30 degrees. -/
example : ∃ m ap dp a d, Spec.Frame m ∧ m.r3 = Spec.dir ap dp ∧ north ap dp a d ≠ 0 ∧ (0 : ℝ) ≤ 60268 ∧
    ((60268 : ℝ) = 60268 ∨ sin (bRad ap dp a d) = 0) := by
  refine ⟨⟨⟨1, 0, 0⟩, ⟨0, 1, 0⟩, ⟨0, 0, 1⟩⟩, 0, π / 2, 1, π / 6, by simp [Spec.Frame, dot], by simp [Spec.dir], ?_, by norm_num, Or.inl rfl⟩
  simp [north]

/-- **C207 is false**: with the radii of Saturn and an opening angle whose sine is 8/17 (28 degrees) the visible point at 60 degrees of latitude and 45
degrees from the meridian of the Earth is drawn outside the outline. -/
theorem C207_lines_false : ∃ m ap dp a d, Spec.Frame m ∧ m.r3 = Spec.dir ap dp ∧ north ap dp a d ≠ 0 ∧
    sin (bRad ap dp a d) = 8 / 17 ∧
    (bodyPoint (peq2sky m ap dp a d) (bRad ap dp a d) 60268 54364 (π / 3) (π / 4)).2 < 0 ∧
    ¬ Spec.Inside (bRad ap dp a d) 60268 54364 (bodyPoint (peq2sky m ap dp a d) (bRad ap dp a d) 60268 54364 (π / 3) (π / 4)).1 := by
  have hsd : sin (-arcsin (8 / 17)) = -(8 / 17) := by rw [sin_neg, sin_arcsin] <;> norm_num
  have hcd : cos (-arcsin (8 / 17)) = 15 / 17 := by
    rw [cos_neg, cos_arcsin, show (1 - (8 / 17 : ℝ) ^ 2) = (15 / 17) ^ 2 by norm_num, sqrt_sq (by norm_num)]
  have hB : sin (bRad 0 (π / 2) 0 (-arcsin (8 / 17))) = 8 / 17 := by
    have := neg_sin_bRad 0 (π / 2) 0 (-arcsin (8 / 17))
    rw [hsd] at this; simp at this; linarith
  have hB2 : cos (bRad 0 (π / 2) 0 (-arcsin (8 / 17))) ^ 2 = (15 / 17) ^ 2 := by
    have := sin_sq_add_cos_sq (bRad 0 (π / 2) 0 (-arcsin (8 / 17)))
    rw [hB] at this; linarith
  have hQ : rpSky (bRad 0 (π / 2) 0 (-arcsin (8 / 17))) 60268 54364 = √(((60268 * 8) ^ 2 + (54364 * 15) ^ 2) / 289) := by
    rw [rpSky, mul_pow 54364, hB2, hB]; congr 1; norm_num
  have hQ1 : (55725 : ℝ) < √(((60268 * 8) ^ 2 + (54364 * 15) ^ 2) / 289) := by
    rw [lt_sqrt (by norm_num)]; norm_num
  have h3 : (1.732 : ℝ) < √3 := by rw [lt_sqrt (by norm_num)]; norm_num
  have h2 : (1.414 : ℝ) < √2 := by rw [lt_sqrt (by norm_num)]; norm_num
  have h2' : √2 < (1.415 : ℝ) := by rw [sqrt_lt' (by norm_num)]; norm_num
  have hb : (bodyPoint (peq2sky ⟨⟨1, 0, 0⟩, ⟨0, 1, 0⟩, ⟨0, 0, 1⟩⟩ 0 (π / 2) 0 (-arcsin (8 / 17))) (bRad 0 (π / 2) 0 (-arcsin (8 / 17)))
      60268 54364 (π / 3) (π / 4)) =
      ((-(15067 * √2), 8 / 17 * (15067 * √2) + 15 / 17 * (√(((60268 * 8) ^ 2 + (54364 * 15) ^ 2) / 289) * (√3 / 2))),
        15 / 17 * (15067 * √2) - 8 / 17 * (√(((60268 * 8) ^ 2 + (54364 * 15) ^ 2) / 289) * (√3 / 2))) := by
    simp only [bodyPoint, peq2sky_app, eeq2sky_eq]
    simp only [calcBp, rad_deg, hQ, hsd, hcd, M3.app, M3.tr, dot, cos_pi_div_three, sin_pi_div_three, cos_pi_div_four, sin_pi_div_four]
    simp
    constructor <;> ring
  refine ⟨⟨⟨1, 0, 0⟩, ⟨0, 1, 0⟩, ⟨0, 0, 1⟩⟩, 0, π / 2, 0, -arcsin (8 / 17), by simp [Spec.Frame, dot], by simp [Spec.dir], ?_, hB, ?_, ?_⟩
  · simp only [north, hsd, hcd]; simp
  · rw [hb]
    nlinarith
  · rw [hb]
    simp only [Spec.Inside, mul_pow, hB, hB2]
    have hz : (52500 : ℝ) < 8 / 17 * (15067 * √2) + 15 / 17 * (√(((60268 * 8) ^ 2 + (54364 * 15) ^ 2) / 289) * (√3 / 2)) := by nlinarith
    have hz2 : (52500 : ℝ) ^ 2 < (8 / 17 * (15067 * √2) + 15 / 17 * (√(((60268 * 8) ^ 2 + (54364 * 15) ^ 2) / 289) * (√3 / 2))) ^ 2 := by
      gcongr
    have h22 : √2 ^ 2 = 2 := sq_sqrt (by norm_num)
    rw [neg_sq, mul_pow, h22]
    norm_num at hz2 ⊢
    linarith

end Verif.Sky
