import Verif.Spec.GeoReal
import Mathlib.Tactic.FieldSimp
import Mathlib.Tactic.LinearCombination
import Mathlib.Tactic.Linarith

/-!
# C79, C80: frames, azimuth, opening angle, impact radius
-/
namespace Verif.Geo
open Real Spec

theorem norm_sq_eq {u : V3} : u.norm ^ 2 = u.dot u := by
  unfold V3.norm
  rw [sq_sqrt]
  unfold V3.dot
  nlinarith [sq_nonneg u.x, sq_nonneg u.y, sq_nonneg u.z]

theorem norm_pos' {u : V3} (h : u.dot u ≠ 0) : 0 < u.norm := by
  have : 0 ≤ u.dot u := by unfold V3.dot; nlinarith [sq_nonneg u.x, sq_nonneg u.y, sq_nonneg u.z]
  exact sqrt_pos.mpr (lt_of_le_of_ne this (Ne.symm h))

theorem dot_smul (a : ℝ) (u v : V3) : (u.smul a).dot v = a * u.dot v := by
  unfold V3.dot V3.smul; ring

theorem dot_comm' (u v : V3) : u.dot v = v.dot u := by unfold V3.dot; ring

theorem dot_sub (u v w : V3) : (u.sub v).dot w = u.dot w - v.dot w := by
  unfold V3.dot V3.sub; ring

theorem hat_unit {u : V3} (h : u.dot u ≠ 0) : u.hat.dot u.hat = 1 := by
  have hn := norm_pos' h
  unfold V3.hat
  rw [dot_smul, dot_comm', dot_smul, ← norm_sq_eq]
  field_simp

/-- Two orthogonal unit vectors and their vector product are the rows of a rotation. -/
theorem rotation_of_rows {y z : V3} (hy : y.dot y = 1) (hz : z.dot z = 1) (hyz : y.dot z = 0) :
    IsRotation (M3.mxv ⟨y.cross z, y, z⟩) := by
  constructor
  · intro u v
    have gram : ((y.cross z).dot u) * ((y.cross z).dot v) =
        y.dot y * (z.dot z * u.dot v - z.dot v * z.dot u) - y.dot z * (y.dot z * u.dot v - z.dot v * y.dot u) +
          y.dot v * (y.dot z * z.dot u - z.dot z * y.dot u) := by
      unfold V3.dot V3.cross; ring
    rw [hy, hz, hyz] at gram
    have : (M3.mxv ⟨y.cross z, y, z⟩ u).dot (M3.mxv ⟨y.cross z, y, z⟩ v) =
        ((y.cross z).dot u) * ((y.cross z).dot v) + y.dot u * y.dot v + z.dot u * z.dot v := rfl
    rw [this, gram]; ring
  · intro u v
    have a : (y.cross z).dot (u.cross v) = y.dot u * z.dot v - z.dot u * y.dot v := by
      unfold V3.dot V3.cross; ring
    have b : z.dot z * y.dot (u.cross v) - y.dot z * z.dot (u.cross v) = z.dot u * (y.cross z).dot v - (y.cross z).dot u * z.dot v := by
      unfold V3.dot V3.cross; ring
    have c : y.dot y * z.dot (u.cross v) - y.dot z * y.dot (u.cross v) = (y.cross z).dot u * y.dot v - y.dot u * (y.cross z).dot v := by
      unfold V3.dot V3.cross; ring
    rw [hz, hyz, one_mul, zero_mul, sub_zero] at b
    rw [hy, hyz, one_mul, zero_mul, sub_zero] at c
    simp only [M3.mxv, V3.cross, V3.mk.injEq]
    refine ⟨a, b, c⟩

/-- The matrix of `twovec` for a pole that is not in the direction of the z-axis. -/
theorem twovec_rotation (n : V3) (h : n.x ≠ 0 ∨ n.y ≠ 0) : IsRotation (twovec32 n ⟨0, 0, 1⟩).mxv := by
  have hxy : 0 < n.x ^ 2 + n.y ^ 2 := by
    rcases h with h | h
    · nlinarith [sq_nonneg n.y, sq_pos_of_ne_zero h]
    · nlinarith [sq_nonneg n.x, sq_pos_of_ne_zero h]
  have hn : n.dot n ≠ 0 := by unfold V3.dot; nlinarith [sq_nonneg n.z]
  have hz := hat_unit hn
  have hnp := norm_pos' hn
  unfold twovec32
  set z := n.hat with hzdef
  have ezx : z.x = n.norm⁻¹ * n.x := rfl
  have ezy : z.y = n.norm⁻¹ * n.y := rfl
  have hzxy : 0 < z.x ^ 2 + z.y ^ 2 := by
    rw [ezx, ezy]
    have : (n.norm⁻¹ * n.x) ^ 2 + (n.norm⁻¹ * n.y) ^ 2 = n.norm⁻¹ ^ 2 * (n.x ^ 2 + n.y ^ 2) := by ring
    rw [this]; positivity
  have hz' : z.x ^ 2 + z.y ^ 2 + z.z ^ 2 = 1 := by
    have := hz; unfold V3.dot at this; linarith
  set w := (V3.mk 0 0 1).sub (z.smul ((V3.mk 0 0 1).dot z)) with hw
  have ew : w = ⟨-(z.z * z.x), -(z.z * z.y), 1 - z.z * z.z⟩ := by
    rw [hw]; unfold V3.sub V3.smul V3.dot; simp
  have hww : w.dot w ≠ 0 := by
    have : w.dot w = z.x ^ 2 + z.y ^ 2 := by
      rw [ew]; unfold V3.dot; simp only
      have e : z.z ^ 2 = 1 - (z.x ^ 2 + z.y ^ 2) := by linarith
      linear_combination (z.x ^ 2 + z.y ^ 2 + z.z ^ 2 - 1) + (z.z ^ 2 - 1) * hz'
    rw [this]; exact hzxy.ne'
  have hy := hat_unit hww
  have hyz : w.hat.dot z = 0 := by
    unfold V3.hat
    rw [dot_smul, hw, dot_sub, dot_smul, hz]; ring
  exact rotation_of_rows hy hz hyz

/-- The third row of that matrix is the pole. -/
theorem twovec_z (n v : V3) (hn : n.dot n = 1) : ((twovec32 n ⟨0, 0, 1⟩).mxv v).z = n.dot v := by
  have : n.norm = 1 := by unfold V3.norm; rw [hn, sqrt_one]
  show n.hat.dot v = n.dot v
  unfold V3.hat
  rw [this, dot_smul]; ring

theorem cos_arg_mul (x y : ℝ) : √(x ^ 2 + y ^ 2) * cos (arctan2 y x) = x ∧ √(x ^ 2 + y ^ 2) * sin (arctan2 y x) = y := by
  unfold arctan2
  have hn : ‖(⟨x, y⟩ : ℂ)‖ = √(x ^ 2 + y ^ 2) := by
    rw [Complex.norm_eq_sqrt_sq_add_sq]
  have h := Complex.norm_mul_cos_add_sin_mul_I (⟨x, y⟩ : ℂ)
  rw [hn] at h
  constructor
  · have := congrArg Complex.re h
    simpa [← Complex.ofReal_cos, ← Complex.ofReal_sin] using this
  · have := congrArg Complex.im h
    simpa [← Complex.ofReal_cos, ← Complex.ofReal_sin] using this

theorem ra_spec (v : V3) : √(v.x ^ 2 + v.y ^ 2) * cos (recradRa v) = v.x ∧ √(v.x ^ 2 + v.y ^ 2) * sin (recradRa v) = v.y ∧
    0 ≤ recradRa v ∧ recradRa v < 2 * π := by
  have h := cos_arg_mul v.x v.y
  unfold arctan2 at h
  have hp := pi_pos
  have h1 := Complex.neg_pi_lt_arg (⟨v.x, v.y⟩ : ℂ)
  have h2 := Complex.arg_le_pi (⟨v.x, v.y⟩ : ℂ)
  unfold recradRa
  split_ifs with k
  · rw [cos_add_two_pi, sin_add_two_pi]
    exact ⟨h.1, h.2, by linarith, by linarith⟩
  · exact ⟨h.1, h.2, not_lt.mp k, by linarith⟩

theorem mod_spec (x : ℝ) (d : ℝ) (hd : 0 < d) : 0 ≤ mod x d ∧ mod x d < d ∧ ∃ k : ℤ, mod x d = x - d * k := by
  unfold mod
  have h1 := Int.floor_le (x / d)
  have h2 := Int.lt_floor_add_one (x / d)
  rw [le_div_iff₀ hd] at h1
  rw [div_lt_iff₀ hd] at h2
  exact ⟨by linarith, by linarith, _, rfl⟩

/-- **C79** For all positions and every pole the observed ring azimuth is at least 0° and less than 360°, and is the angle,
counterclockwise around the pole, from the projected line of sight to the ring intercept point; the ring longitude is in the
same range, and differences of ring longitudes are such angles as well. -/
theorem C79_azimuth (starg rho nhat : V3) (hn : nhat.dot nhat = 1) (h : nhat.x ≠ 0 ∨ nhat.y ≠ 0) :
    0 ≤ (calcPhi starg rho nhat).2 ∧ (calcPhi starg rho nhat).2 < 360 ∧
    IsAzimuth nhat starg rho (toRad (calcPhi starg rho nhat).2) ∧
    0 ≤ (calcPhi starg rho nhat).1 ∧ (calcPhi starg rho nhat).1 < 360 ∧
    ∀ starg' rho', IsAzimuth nhat rho rho' (toRad ((calcPhi starg' rho' nhat).1 - (calcPhi starg rho nhat).1)) := by
  have hp := pi_pos
  obtain ⟨rot1, rot2⟩ := twovec_rotation nhat h
  have rz := fun v => twovec_z nhat v hn
  unfold calcPhi
  set M := twovec32 nhat ⟨0, 0, 1⟩ with hM
  -- azimuth from right ascensions
  have core : ∀ a b : V3, ∀ d : ℝ, (∃ k : ℤ, d = recradRa (M.mxv b) - recradRa ⟨(M.mxv a).x, (M.mxv a).y, 0⟩ + k * (2 * π)) →
      IsAzimuth nhat a b d := by
    rintro a b d ⟨k, rfl⟩
    have ca := ra_spec ⟨(M.mxv a).x, (M.mxv a).y, 0⟩
    have cb := ra_spec (M.mxv b)
    simp only at ca
    have na : a.dot a - a.dot nhat ^ 2 = (M.mxv a).x ^ 2 + (M.mxv a).y ^ 2 := by
      have := rot1 a a
      have z := rz a
      rw [← this, dot_comm' a nhat, ← z]
      unfold V3.dot; ring
    have nb : b.dot b - b.dot nhat ^ 2 = (M.mxv b).x ^ 2 + (M.mxv b).y ^ 2 := by
      have := rot1 b b
      have z := rz b
      rw [← this, dot_comm' b nhat, ← z]
      unfold V3.dot; ring
    unfold IsAzimuth
    simp only
    rw [na, nb]
    have c1 := cos_add_int_mul_two_pi (recradRa (M.mxv b) - recradRa ⟨(M.mxv a).x, (M.mxv a).y, 0⟩) k
    have s1 := sin_add_int_mul_two_pi (recradRa (M.mxv b) - recradRa ⟨(M.mxv a).x, (M.mxv a).y, 0⟩) k
    rw [c1, s1, cos_sub, sin_sub]
    obtain ⟨a1, a2, -, -⟩ := ca
    obtain ⟨b1, b2, -, -⟩ := cb
    generalize recradRa ⟨(M.mxv a).x, (M.mxv a).y, 0⟩ = α at *
    generalize recradRa (M.mxv b) = β at *
    constructor
    · have d1 := rot1 a b
      have e1 := rz a
      have e2 := rz b
      rw [dot_comm' a nhat, dot_comm' b nhat, ← e1, ← e2, ← d1]
      have : ((M.mxv a).dot (M.mxv b)) - (M.mxv a).z * (M.mxv b).z = (M.mxv a).x * (M.mxv b).x + (M.mxv a).y * (M.mxv b).y := by
        unfold V3.dot; ring
      rw [this]
      calc _ = (√((M.mxv a).x ^ 2 + (M.mxv a).y ^ 2) * cos α) * (√((M.mxv b).x ^ 2 + (M.mxv b).y ^ 2) * cos β) +
            (√((M.mxv a).x ^ 2 + (M.mxv a).y ^ 2) * sin α) * (√((M.mxv b).x ^ 2 + (M.mxv b).y ^ 2) * sin β) := by ring
        _ = _ := by rw [a1, a2, b1, b2]
    · have d1 := rot2 a b
      have e1 := rz (a.cross b)
      rw [← e1, d1]
      have : ((M.mxv a).cross (M.mxv b)).z = (M.mxv a).x * (M.mxv b).y - (M.mxv a).y * (M.mxv b).x := rfl
      rw [this]
      calc _ = (√((M.mxv a).x ^ 2 + (M.mxv a).y ^ 2) * cos α) * (√((M.mxv b).x ^ 2 + (M.mxv b).y ^ 2) * sin β) -
            (√((M.mxv a).x ^ 2 + (M.mxv a).y ^ 2) * sin α) * (√((M.mxv b).x ^ 2 + (M.mxv b).y ^ 2) * cos β) := by ring
        _ = _ := by rw [a1, a2, b1, b2]
  have hdr : ∀ x, toRad (toDeg x) = x := fun x => by
    unfold toRad toDeg; field_simp
  have hdr2 : ∀ x y : ℝ, toRad (x - y) = toRad x - toRad y := fun x y => by unfold toRad; ring
  obtain ⟨m1, m2, k, m3⟩ := mod_spec (toDeg (recradRa (M.mxv rho)) - toDeg (recradRa ⟨(M.mxv starg).x, (M.mxv starg).y, 0⟩) + 720) 360 (by norm_num)
  obtain ⟨-, -, r1, r2⟩ := ra_spec (M.mxv rho)
  refine ⟨m1, m2, core _ _ _ ⟨2 - k, ?_⟩, ?_, ?_, fun starg' rho' => core _ _ _ ⟨0, ?_⟩⟩
  · simp only
    rw [m3]
    have : toRad (toDeg (recradRa (M.mxv rho)) - toDeg (recradRa ⟨(M.mxv starg).x, (M.mxv starg).y, 0⟩) + 720 - 360 * k) =
        toRad (toDeg (recradRa (M.mxv rho))) - toRad (toDeg (recradRa ⟨(M.mxv starg).x, (M.mxv starg).y, 0⟩)) + (2 - k) * (2 * π) := by
      unfold toRad; ring
    rw [this, hdr, hdr]
    push_cast
    ring
  · simp only
    unfold toDeg; positivity
  · simp only
    unfold toDeg
    rw [mul_div_assoc', div_lt_iff₀ hp]
    linarith
  · simp only
    rw [hdr2, hdr, hdr]
    have : recradRa ⟨(M.mxv rho).x, (M.mxv rho).y, 0⟩ = recradRa (M.mxv rho) := rfl
    rw [this]
    push_cast
    ring

/-- A pole that is not the z-axis. -/
example : 0 ≤ (calcPhi ⟨1, 2, 3⟩ ⟨4, 5, 6⟩ ⟨0.6, 0, 0.8⟩).2 ∧
    IsAzimuth ⟨0.6, 0, 0.8⟩ ⟨1, 2, 3⟩ ⟨4, 5, 6⟩ (toRad (calcPhi ⟨1, 2, 3⟩ ⟨4, 5, 6⟩ ⟨0.6, 0, 0.8⟩).2) := by
  obtain ⟨h1, -, h2, -⟩ := C79_azimuth ⟨1, 2, 3⟩ ⟨4, 5, 6⟩ ⟨0.6, 0, 0.8⟩ (by unfold V3.dot; norm_num) (Or.inl (by norm_num))
  exact ⟨h1, h2⟩

/-- **C79** The opening angle is between -90° and 90°, and its sine is the component of the direction to the station along the
pole. -/
theorem C79_opening (starg nhat : V3) (hs : starg.dot starg ≠ 0) (hn : nhat.dot nhat = 1) :
    -90 ≤ calcB starg nhat ∧ calcB starg nhat ≤ 90 ∧ sin (toRad (calcB starg nhat)) = starg.dot nhat / starg.norm := by
  have hp := pi_pos
  have n1 : nhat.norm = 1 := by unfold V3.norm; rw [hn, sqrt_one]
  have hsp := norm_pos' hs
  have h0 := arccos_nonneg (starg.dot nhat / (starg.norm * nhat.norm))
  have h1 := arccos_le_pi (starg.dot nhat / (starg.norm * nhat.norm))
  unfold calcB vsep toDeg
  refine ⟨?_, ?_, ?_⟩
  · rw [mul_div_assoc', le_div_iff₀ hp]; linarith
  · rw [mul_div_assoc', div_le_iff₀ hp]; linarith
  · have : toRad ((π / 2 - arccos (starg.dot nhat / (starg.norm * nhat.norm))) * (180 / π)) =
        π / 2 - arccos (starg.dot nhat / (starg.norm * nhat.norm)) := by unfold toRad; field_simp
    have cs : (starg.dot nhat) ^ 2 ≤ starg.norm ^ 2 := by
      rw [norm_sq_eq]
      have : starg.dot starg * nhat.dot nhat - starg.dot nhat ^ 2 = (starg.cross nhat).dot (starg.cross nhat) := by
        unfold V3.dot V3.cross; ring
      have h2 : 0 ≤ (starg.cross nhat).dot (starg.cross nhat) := by
        unfold V3.dot; nlinarith [sq_nonneg (starg.cross nhat).x, sq_nonneg (starg.cross nhat).y, sq_nonneg (starg.cross nhat).z]
      rw [hn] at this
      linarith
    have hab := abs_le_of_sq_le_sq' cs hsp.le
    rw [this, sin_pi_div_two_sub, n1, mul_one, cos_arccos]
    · rw [le_div_iff₀ hsp]; linarith
    · rw [div_le_iff₀ hsp]; linarith

example : sin (toRad (calcB ⟨3, 4, 12⟩ ⟨0, 0, 1⟩)) = 12 / 13 := by
  rw [(C79_opening ⟨3, 4, 12⟩ ⟨0, 0, 1⟩ (by unfold V3.dot; norm_num) (by unfold V3.dot; norm_num)).2.2]
  have : (V3.mk 3 4 12).norm = 13 := by
    unfold V3.norm V3.dot
    rw [show (3 * 3 + 4 * 4 + 12 * 12 : ℝ) = 13 ^ 2 by norm_num, sqrt_sq (by norm_num)]
  rw [this]
  unfold V3.dot
  norm_num

/-- The direction of the pole is a unit vector at every time and for all constants. -/
theorem C79_pole (et : ℝ) (ra dec : ℝ × ℝ × ℝ) : (getPole et ra dec).dot (getPole et ra dec) = 1 := by
  unfold getPole radrec1 V3.dot
  simp only
  generalize toRad _ = a
  generalize toRad _ = b
  have h1 := sin_sq_add_cos_sq a
  have h2 := sin_sq_add_cos_sq b
  linear_combination cos b ^ 2 * h1 + h2

/-- The constants of Saturn. -/
example : (getPole 1.7e8 (40.589, -0.036, 0) (83.537, -0.004, 0)).dot (getPole 1.7e8 (40.589, -0.036, 0) (83.537, -0.004, 0)) = 1 :=
  C79_pole _ _ _

/-- The pole has the declination `δ` and the right ascension `α` that the constants give for the number of centuries. -/
theorem C79_direction (et : ℝ) (ra dec : ℝ × ℝ × ℝ) {T α δ : ℝ} (hT : et = T * (36525 * 86400))
    (hα : α = π * (ra.1 + ra.2.1 * T + ra.2.2 * T ^ 2) / 180) (hδ : δ = π * (dec.1 + dec.2.1 * T + dec.2.2 * T ^ 2) / 180) :
    (getPole et ra dec).dot ⟨0, 0, 1⟩ = sin δ ∧ (getPole et ra dec).dot ⟨cos α, sin α, 0⟩ = cos δ ∧
      (getPole et ra dec).dot ⟨-sin α, cos α, 0⟩ = 0 := by
  have e : et / (86400 * 365.25 * 100) = T := by rw [hT]; ring
  have e1 : toRad (ra.1 + T * ra.2.1 + T ^ 2 * ra.2.2) = α := by rw [hα]; unfold toRad; ring
  have e2 : toRad (dec.1 + T * dec.2.1 + T ^ 2 * dec.2.2) = δ := by rw [hδ]; unfold toRad; ring
  unfold getPole radrec1 V3.dot
  simp only [e, e1, e2]
  have h1 := sin_sq_add_cos_sq α
  refine ⟨by ring, ?_, by ring⟩
  linear_combination cos δ * h1

/-- A century after 2000. -/
example : (getPole 3155760000 (40, 50, 0) (60, 20, 10)).dot ⟨0, 0, 1⟩ = 1 := by
  rw [(C79_direction 3155760000 (40, 50, 0) (60, 20, 10) (T := 1) (by norm_num) rfl rfl).1]
  rw [show π * (60 + 20 * 1 + 10 * 1 ^ 2) / 180 = π / 2 by ring]
  exact sin_pi_div_two

theorem rotate3_rotation (a : ℝ) : IsRotation (rotate3 a).mxv := by
  have h := sin_sq_add_cos_sq a
  unfold IsRotation rotate3 M3.mxv V3.dot V3.cross
  simp only
  constructor
  · intro u v
    linear_combination (u.x * v.x + u.y * v.y) * h
  · intro u v
    simp only [V3.mk.injEq]
    refine ⟨by ring, by ring, ?_⟩
    linear_combination (-(u.x * v.y - u.y * v.x)) * h

/-- **C80** For every line of sight and every pole the change to the planet's frame is a rotation; it takes the pole to the third
axis and the line of sight into the half plane of the first and third axes with positive first coordinate. -/
theorem C80_frame (starg nhat : V3) (hs : starg.dot starg ≠ 0) (hn : nhat.dot nhat = 1) (h : nhat.x ≠ 0 ∨ nhat.y ≠ 0) :
    IsRotation (xformPcf starg nhat) ∧ xformPcf starg nhat nhat = ⟨0, 0, 1⟩ ∧
    (∀ v, (xformPcf starg nhat v).z = nhat.dot v) ∧
    (xformPcf starg nhat starg).y = 0 ∧ 0 ≤ (xformPcf starg nhat starg).x := by
  obtain ⟨m1, m2⟩ := twovec_rotation nhat h
  have rz := fun v => twovec_z nhat v hn
  set M := twovec32 nhat ⟨0, 0, 1⟩ with hM
  set α := arctan2 ((M.mxv starg).hat).y ((M.mxv starg).hat).x with hα
  obtain ⟨r1, r2⟩ := rotate3_rotation α
  have e : ∀ v, xformPcf starg nhat v = (rotate3 α).mxv (M.mxv v) := fun v => rfl
  have ez : ∀ v, (xformPcf starg nhat v).z = nhat.dot v := by
    intro v
    rw [e, ← rz v]
    show (V3.mk 0 0 1).dot (M.mxv v) = _
    unfold V3.dot; ring
  have rot : IsRotation (xformPcf starg nhat) := by
    constructor
    · intro u v; rw [e, e, r1, m1]
    · intro u v; rw [e, e, e, m2, r2]
  have los : (xformPcf starg nhat starg).y = 0 ∧ 0 ≤ (xformPcf starg nhat starg).x := by
    rw [e]
    have hd : (M.mxv starg).dot (M.mxv starg) ≠ 0 := by rw [m1]; exact hs
    have hp := norm_pos' hd
    obtain ⟨c1, c2⟩ := cos_arg_mul ((M.mxv starg).hat).x ((M.mxv starg).hat).y
    rw [← hα] at c1 c2
    set s := (M.mxv starg).norm with hsn
    have ex : ((M.mxv starg).hat).x = s⁻¹ * (M.mxv starg).x := rfl
    have ey : ((M.mxv starg).hat).y = s⁻¹ * (M.mxv starg).y := rfl
    set r := √(((M.mxv starg).hat).x ^ 2 + ((M.mxv starg).hat).y ^ 2) with hr
    have hr0 : 0 ≤ r := sqrt_nonneg _
    have vx : (M.mxv starg).x = s * (r * cos α) := by rw [c1, ex]; field_simp
    have vy : (M.mxv starg).y = s * (r * sin α) := by rw [c2, ey]; field_simp
    have hsc := sin_sq_add_cos_sq α
    constructor
    · show (V3.mk (-sin α) (cos α) 0).dot (M.mxv starg) = 0
      unfold V3.dot
      simp only
      rw [vx, vy]; ring
    · have : ((rotate3 α).mxv (M.mxv starg)).x = s * r := by
        show (V3.mk (cos α) (sin α) 0).dot (M.mxv starg) = _
        unfold V3.dot
        simp only
        rw [vx, vy]
        linear_combination (s * r) * hsc
      rw [this]; positivity
  refine ⟨rot, ?_, ez, los.1, los.2⟩
  have z1 := ez nhat
  rw [hn] at z1
  have d := rot.1 nhat nhat
  rw [hn] at d
  have dd : (xformPcf starg nhat nhat).x ^ 2 + (xformPcf starg nhat nhat).y ^ 2 = 0 := by
    have : (xformPcf starg nhat nhat).dot (xformPcf starg nhat nhat) =
      (xformPcf starg nhat nhat).x ^ 2 + (xformPcf starg nhat nhat).y ^ 2 + (xformPcf starg nhat nhat).z ^ 2 := by
      unfold V3.dot; ring
    rw [this, z1] at d
    linarith
  have x0 : (xformPcf starg nhat nhat).x = 0 := by
    have : (xformPcf starg nhat nhat).x ^ 2 = 0 := by nlinarith [sq_nonneg (xformPcf starg nhat nhat).x, sq_nonneg (xformPcf starg nhat nhat).y]
    exact pow_eq_zero_iff (two_ne_zero) |>.mp this
  have y0 : (xformPcf starg nhat nhat).y = 0 := by
    have : (xformPcf starg nhat nhat).y ^ 2 = 0 := by nlinarith [sq_nonneg (xformPcf starg nhat nhat).x, sq_nonneg (xformPcf starg nhat nhat).y]
    exact pow_eq_zero_iff (two_ne_zero) |>.mp this
  generalize xformPcf starg nhat nhat = w at *
  cases w
  simp only at x0 y0 z1
  rw [x0, y0, z1]

example : xformPcf ⟨1, 2, 3⟩ ⟨0.6, 0, 0.8⟩ ⟨0.6, 0, 0.8⟩ = ⟨0, 0, 1⟩ :=
  (C80_frame ⟨1, 2, 3⟩ ⟨0.6, 0, 0.8⟩ (by unfold V3.dot; norm_num) (by unfold V3.dot; norm_num) (Or.inl (by norm_num))).2.1

/-- **C80** The impact radius computed in that frame is the distance of the planet's centre from the line through the spacecraft
at `r` in the direction of sight: the least distance of all points of the line, for all positions. -/
theorem C80_impact (starg nhat r : V3) (hs : starg.dot starg ≠ 0) (hn : nhat.dot nhat = 1) (h : nhat.x ≠ 0 ∨ nhat.y ≠ 0) :
    IsLeast (Set.range fun t : ℝ => (V3.mk (r.x + t * starg.x) (r.y + t * starg.y) (r.z + t * starg.z)).norm)
      (lineDist (xformPcf starg nhat r) (xformPcf starg nhat starg) ⟨0, 0, 0⟩) := by
  obtain ⟨⟨d1, -⟩, -⟩ := C80_frame starg nhat hs hn h
  have drr := d1 r r
  have drs := d1 r starg
  have dss := d1 starg starg
  unfold lineDist
  set a := xformPcf starg nhat r
  set d := xformPcf starg nhat starg
  have hpos : 0 < starg.dot starg := lt_of_le_of_ne (by unfold V3.dot; nlinarith [sq_nonneg starg.x, sq_nonneg starg.y, sq_nonneg starg.z]) (Ne.symm hs)
  set t0 := -(r.dot starg) / starg.dot starg with ht0
  have point : ∀ t : ℝ, (V3.mk (r.x + t * starg.x) (r.y + t * starg.y) (r.z + t * starg.z)).dot
      (V3.mk (r.x + t * starg.x) (r.y + t * starg.y) (r.z + t * starg.z)) = r.dot r + 2 * t * r.dot starg + t ^ 2 * starg.dot starg := by
    intro t; unfold V3.dot; ring
  have hw : ((V3.mk 0 0 0).sub a).dot d = -(r.dot starg) := by
    rw [← drs]; unfold V3.sub V3.dot; ring
  have val : (((V3.mk 0 0 0).sub a).sub (d.smul (((V3.mk 0 0 0).sub a).dot d / d.dot d))).dot
      (((V3.mk 0 0 0).sub a).sub (d.smul (((V3.mk 0 0 0).sub a).dot d / d.dot d))) =
      r.dot r + 2 * t0 * r.dot starg + t0 ^ 2 * starg.dot starg := by
    rw [hw, dss, ← ht0, ← drr, ← drs, ← dss]
    unfold V3.sub V3.smul V3.dot
    ring
  constructor
  · refine ⟨t0, ?_⟩
    simp only
    unfold V3.norm
    rw [val, point]
  · rintro _ ⟨t, rfl⟩
    simp only
    unfold V3.norm
    rw [val, point]
    apply sqrt_le_sqrt
    have : r.dot r + 2 * t * r.dot starg + t ^ 2 * starg.dot starg - (r.dot r + 2 * t0 * r.dot starg + t0 ^ 2 * starg.dot starg) =
        starg.dot starg * (t - t0) ^ 2 := by
      rw [ht0]; field_simp; ring
    have : 0 ≤ starg.dot starg * (t - t0) ^ 2 := by positivity
    linarith

example : lineDist (xformPcf ⟨1, 2, 3⟩ ⟨0.6, 0, 0.8⟩ ⟨4, 5, 6⟩) (xformPcf ⟨1, 2, 3⟩ ⟨0.6, 0, 0.8⟩ ⟨1, 2, 3⟩) ⟨0, 0, 0⟩ ≤
    (V3.mk (4 + 0 * 1) (5 + 0 * 2) (6 + 0 * 3)).norm :=
  (C80_impact ⟨1, 2, 3⟩ ⟨0.6, 0, 0.8⟩ ⟨4, 5, 6⟩ (by unfold V3.dot; norm_num) (by unfold V3.dot; norm_num) (Or.inl (by norm_num))).2 ⟨0, rfl⟩

end Verif.Geo
