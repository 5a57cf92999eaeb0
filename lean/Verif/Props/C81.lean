import Verif.Model.Geo
import Verif.Model.GeoReal
import Mathlib.Analysis.Calculus.Deriv.MeanValue
import Mathlib.Tactic.FieldSimp

/-!
# C81: velocity of the ring intercept point
-/
namespace Verif.Geo
open Verif.Rsr

/-- The values of `f` at `n` times from `t0` on. -/
noncomputable def samples (f : ℝ → ℝ) (t0 dt : ℝ) (n : Nat) : List ℝ := (List.range n).map fun i : Nat => f (t0 + (i : ℝ) * dt)

theorem samples_length (f : ℝ → ℝ) (t0 dt : ℝ) (n : Nat) : (samples f t0 dt n).length = n := by simp [samples]

theorem samples_getD (f : ℝ → ℝ) (t0 dt : ℝ) (n i : Nat) (h : i < n) : (samples f t0 dt n).getD i 0 = f (t0 + i * dt) := by
  rw [samples, List.getD_eq_getElem?_getD, List.getElem?_map, List.getElem?_range h]
  rfl

theorem gradient_length {K : Type} [Field K] (f : List K) (dt : K) : (gradient f dt).length = f.length := by
  simp [gradient]

theorem gradient_getD {K : Type} [Field K] (f : List K) (dt : K) (i : Nat) (h : i < f.length) : (gradient f dt).getD i 0 =
    if i = 0 then (f.getD 1 0 - f.getD 0 0) / dt
    else if i + 1 = f.length then (f.getD i 0 - f.getD (i - 1) 0) / dt
    else (f.getD (i + 1) 0 - f.getD (i - 1) 0) / (2 * dt) := by
  rw [gradient, List.getD_eq_getElem?_getD, List.getElem?_map, List.getElem?_range h]
  rfl

theorem slope {f : ℝ → ℝ} (hf : Differentiable ℝ f) {a b : ℝ} (h : a < b) :
    ∃ c, a < c ∧ c < b ∧ (f b - f a) / (b - a) = deriv f c := by
  obtain ⟨c, hc, e⟩ := exists_deriv_eq_slope f h hf.continuous.continuousOn hf.differentiableOn
  exact ⟨c, hc.1, hc.2, e.symm⟩

/-- The gradient of samples is the derivative somewhere between the neighbouring times. -/
theorem gradient_samples {f : ℝ → ℝ} (hf : Differentiable ℝ f) (t0 dt : ℝ) (hdt : 0 < dt) (n : Nat) (hn : 2 ≤ n) (i : Nat)
    (hi : i < n) : ∃ ξ, |ξ - (t0 + i * dt)| < dt ∧ t0 < ξ ∧ ξ < t0 + (n - 1 : ℕ) * dt ∧
      (gradient (samples f t0 dt n) dt).getD i 0 = deriv f ξ := by
  rw [gradient_getD _ _ _ (by rw [samples_length]; exact hi), samples_length]
  have hn1 : (1 : ℝ) ≤ ((n - 1 : ℕ) : ℝ) := by
    have : 1 ≤ n - 1 := by omega
    exact_mod_cast this
  by_cases h0 : i = 0
  · subst h0
    rw [if_pos rfl, samples_getD _ _ _ _ _ (by omega), samples_getD _ _ _ _ _ hi]
    obtain ⟨c, c1, c2, e⟩ := slope hf (a := t0) (b := t0 + dt) (by linarith)
    refine ⟨c, ?_, c1, by nlinarith, ?_⟩
    · rw [abs_lt]; push_cast; constructor <;> linarith
    · rw [← e]; push_cast; simp
  · rw [if_neg h0]
    have hi1 : ((i - 1 : ℕ) : ℝ) = (i : ℝ) - 1 := by
      rw [Nat.cast_sub (by omega)]; norm_num
    have hi0 : (1 : ℝ) ≤ i := by
      have : 1 ≤ i := by omega
      exact_mod_cast this
    by_cases h1 : i + 1 = n
    · rw [if_pos h1, samples_getD _ _ _ _ _ hi, samples_getD _ _ _ _ _ (by omega), hi1]
      have hin : ((n - 1 : ℕ) : ℝ) = i := by
        have : n - 1 = i := by omega
        rw [this]
      obtain ⟨c, c1, c2, e⟩ := slope hf (a := t0 + ((i : ℝ) - 1) * dt) (b := t0 + i * dt) (by linarith)
      refine ⟨c, ?_, by nlinarith, by rw [hin]; linarith, ?_⟩
      · rw [abs_lt]; constructor <;> linarith
      · rw [← e]; congr 1; ring
    · rw [if_neg h1, samples_getD _ _ _ _ _ (by omega), samples_getD _ _ _ _ _ (by omega), hi1]
      obtain ⟨c, c1, c2, e⟩ := slope hf (a := t0 + ((i : ℝ) - 1) * dt) (b := t0 + ((i + 1 : ℕ) : ℝ) * dt)
        (by push_cast; nlinarith)
      have hin : ((i + 1 : ℕ) : ℝ) ≤ ((n - 1 : ℕ) : ℝ) := by
        have : i + 1 ≤ n - 1 := by omega
        exact_mod_cast this
      have := mul_le_mul_of_nonneg_right hin hdt.le
      refine ⟨c, ?_, by nlinarith, by linarith, ?_⟩
      · push_cast at c2; rw [abs_lt]; constructor <;> linarith
      · rw [← e]; congr 1; push_cast; ring

theorem velocity_ok (rad : ℝ → ℝ) (rho phi : List ℝ) (dt : ℝ) (h1 : 2 ≤ rho.length) (h2 : 2 ≤ phi.length) :
    calcRipVelocity rad rho phi dt = .ok (gradient rho dt, List.zipWith (· * ·) rho (gradient (phi.map rad) dt)) := by
  unfold calcRipVelocity
  rw [if_neg (by omega)]

theorem zip_getD (a b : List ℝ) (i : Nat) (ha : i < a.length) (hb : i < b.length) :
    (List.zipWith (· * ·) a b).getD i 0 = a.getD i 0 * b.getD i 0 := by
  rw [List.getD_eq_getElem?_getD, List.getD_eq_getElem?_getD, List.getD_eq_getElem?_getD, List.getElem?_zipWith,
    List.getElem?_eq_getElem ha, List.getElem?_eq_getElem hb]
  rfl

theorem map_samples (g f : ℝ → ℝ) (t0 dt : ℝ) (n : Nat) : (samples f t0 dt n).map g = samples (fun t => g (f t)) t0 dt n := by
  simp [samples]

/-- **C81** (partial) For every differentiable motion, sampled at two or more equidistant times, each radial velocity is the
derivative of the radius at a time between the neighbours, and each azimuthal velocity is the radius times such a derivative of
the longitude.  Missing: longitudes that pass 360°, see `C81_wrap_false`. -/
theorem C81_velocity_partial (ρ θ : ℝ → ℝ) (hρ : Differentiable ℝ ρ) (hθ : Differentiable ℝ θ) (t0 dt : ℝ) (hdt : 0 < dt)
    (n : Nat) (hn : 2 ≤ n) :
    ∃ v w, calcRipVelocity toRad (samples ρ t0 dt n) (samples θ t0 dt n) dt = .ok (v, w) ∧ v.length = n ∧ w.length = n ∧
      ∀ i, i < n →
        (∃ ξ, |ξ - (t0 + i * dt)| < dt ∧ t0 < ξ ∧ ξ < t0 + (n - 1 : ℕ) * dt ∧ v.getD i 0 = deriv ρ ξ) ∧
        ∃ ξ, |ξ - (t0 + i * dt)| < dt ∧ t0 < ξ ∧ ξ < t0 + (n - 1 : ℕ) * dt ∧
          w.getD i 0 = ρ (t0 + i * dt) * (deriv θ ξ * (Real.pi / 180)) := by
  refine ⟨_, _, velocity_ok _ _ _ _ (by rw [samples_length]; exact hn) (by rw [samples_length]; exact hn),
    by rw [gradient_length, samples_length], by simp [gradient_length, samples_length], fun i hi => ?_⟩
  refine ⟨gradient_samples hρ t0 dt hdt n hn i hi, ?_⟩
  have hθ' : Differentiable ℝ fun t => toRad (θ t) := by
    unfold toRad; exact hθ.mul_const _
  obtain ⟨ξ, a, b, c, e⟩ := gradient_samples hθ' t0 dt hdt n hn i hi
  refine ⟨ξ, a, b, c, ?_⟩
  rw [map_samples, zip_getD _ _ _ (by rw [samples_length]; exact hi) (by rw [gradient_length, samples_length]; exact hi), e,
    samples_getD _ _ _ _ _ hi]
  congr 1
  unfold toRad
  rw [deriv_mul_const (hθ ξ)]

/-- A straight and a circular motion. -/
example : ∃ v w, calcRipVelocity toRad (samples (fun t => 100 + 2 * t) 0 1 5) (samples (fun t => 3 * t) 0 1 5) 1 = .ok (v, w) ∧
    v.length = 5 := by
  obtain ⟨v, w, e, h, -⟩ := C81_velocity_partial (fun t => 100 + 2 * t) (fun t => 3 * t)
    (by fun_prop) (by fun_prop) 0 1 one_pos 5 (by norm_num)
  exact ⟨v, w, e, h⟩

/-- **C81** For radii that are quadratic in time the radial velocity is exact except at the two ends, where it is off by the
acceleration times half the step. -/
theorem C81_quadratic (rad : ℝ → ℝ) (a b c t0 dt : ℝ) (hdt : dt ≠ 0) (phi : List ℝ) (hp : 2 ≤ phi.length) (n : Nat) (hn : 2 ≤ n) :
    ∃ v w, calcRipVelocity rad (samples (fun t => a + b * t + c * t ^ 2) t0 dt n) phi dt = .ok (v, w) ∧
      (∀ i, 0 < i → i + 1 < n → v.getD i 0 = b + 2 * c * (t0 + i * dt)) ∧
      v.getD 0 0 = b + 2 * c * t0 + c * dt ∧
      v.getD (n - 1) 0 = b + 2 * c * (t0 + (n - 1 : ℕ) * dt) - c * dt := by
  refine ⟨_, _, velocity_ok _ _ _ _ (by rw [samples_length]; exact hn) hp, ?_, ?_, ?_⟩
  · intro i h0 h1
    have hi1 : ((i - 1 : ℕ) : ℝ) = (i : ℝ) - 1 := by
      rw [Nat.cast_sub (by omega)]; norm_num
    rw [gradient_getD _ _ _ (by rw [samples_length]; omega), samples_length, if_neg (by omega), if_neg (by omega),
      samples_getD _ _ _ _ _ (by omega), samples_getD _ _ _ _ _ (by omega), hi1]
    push_cast
    field_simp
    ring
  · rw [gradient_getD _ _ _ (by rw [samples_length]; omega), if_pos rfl, samples_getD _ _ _ _ _ (by omega),
      samples_getD _ _ _ _ _ (by omega)]
    push_cast
    field_simp
    ring
  · have e : n - 1 + 1 = n := by omega
    have hi1 : ((n - 1 - 1 : ℕ) : ℝ) = ((n - 1 : ℕ) : ℝ) - 1 := by
      rw [Nat.cast_sub (by omega)]; norm_num
    rw [gradient_getD _ _ _ (by rw [samples_length]; omega), samples_length, if_neg (by omega), if_pos e,
      samples_getD _ _ _ _ _ (by omega), samples_getD _ _ _ _ _ (by omega), hi1]
    field_simp
    ring

example : ∃ v w, calcRipVelocity toRad (samples (fun t => 1 + 2 * t + 3 * t ^ 2) 0 1 5) [0, 1] 1 = .ok (v, w) ∧
    v.getD 2 0 = 2 + 2 * 3 * (0 + 2 * 1) := by
  obtain ⟨v, w, e, h, -⟩ := C81_quadratic toRad 1 2 3 0 1 one_ne_zero [0, 1] (by simp) 5 (by norm_num)
  exact ⟨v, w, e, by have := h 2 (by norm_num) (by norm_num); exact_mod_cast this⟩

/-- **C81** is false when the longitude, which is kept below 360°, passes 360° between the times `k` and `k + 1`: both azimuthal
velocities there (`k` and `k + 1` inner points) are too small by `π` times the radius over the step.  `θ` is the continuous
longitude, `phi` the one that `calc_phi_deg` returns. -/
theorem C81_wrap_false (ρ θ : ℝ → ℝ) (t0 dt : ℝ) (hdt : 0 < dt) (n k : Nat) (hk : 0 < k) (hkn : k + 2 < n) (phi : List ℝ)
    (hlen : phi.length = n) (h1 : ∀ i, i ≤ k → phi.getD i 0 = θ (t0 + i * dt))
    (h2 : ∀ i, k < i → i < n → phi.getD i 0 = θ (t0 + i * dt) - 360) :
    ∃ v w v' w', calcRipVelocity toRad (samples ρ t0 dt n) phi dt = .ok (v, w) ∧
      calcRipVelocity toRad (samples ρ t0 dt n) (samples θ t0 dt n) dt = .ok (v', w') ∧
      w.getD k 0 = w'.getD k 0 - ρ (t0 + k * dt) * Real.pi / dt ∧
      w.getD (k + 1) 0 = w'.getD (k + 1) 0 - ρ (t0 + (k + 1 : ℕ) * dt) * Real.pi / dt := by
  refine ⟨_, _, _, _, velocity_ok _ _ _ _ (by rw [samples_length]; omega) (by omega),
    velocity_ok _ _ _ _ (by rw [samples_length]; omega) (by rw [samples_length]; omega), ?_⟩
  have gm : ∀ i, i < n → (phi.map toRad).getD i 0 = toRad (phi.getD i 0) := by
    intro i hi
    simp [List.getD_eq_getElem?_getD, List.getElem?_eq_getElem (hlen ▸ hi : i < phi.length)]
  have gs : ∀ i, i < n → ((samples θ t0 dt n).map toRad).getD i 0 = toRad (θ (t0 + i * dt)) := by
    intro i hi
    rw [map_samples, samples_getD _ _ _ _ _ hi]
  have key : ∀ i, 0 < i → i + 1 < n →
      (List.zipWith (· * ·) (samples ρ t0 dt n) (gradient (phi.map toRad) dt)).getD i 0 =
        ρ (t0 + i * dt) * ((toRad (phi.getD (i + 1) 0) - toRad (phi.getD (i - 1) 0)) / (2 * dt)) := by
    intro i h0 hi
    rw [zip_getD _ _ _ (by rw [samples_length]; omega) (by rw [gradient_length, List.length_map]; omega),
      samples_getD _ _ _ _ _ (by omega), gradient_getD _ _ _ (by rw [List.length_map]; omega), List.length_map, hlen,
      if_neg (by omega), if_neg (by omega), gm _ hi, gm _ (by omega)]
  have key' : ∀ i, 0 < i → i + 1 < n →
      (List.zipWith (· * ·) (samples ρ t0 dt n) (gradient ((samples θ t0 dt n).map toRad) dt)).getD i 0 =
        ρ (t0 + i * dt) * ((toRad (θ (t0 + (i + 1 : ℕ) * dt)) - toRad (θ (t0 + (i - 1 : ℕ) * dt))) / (2 * dt)) := by
    intro i h0 hi
    rw [zip_getD _ _ _ (by rw [samples_length]; omega) (by rw [gradient_length, List.length_map, samples_length]; omega),
      samples_getD _ _ _ _ _ (by omega), gradient_getD _ _ _ (by rw [List.length_map, samples_length]; omega),
      List.length_map, samples_length, if_neg (by omega), if_neg (by omega), gs _ hi, gs _ (by omega)]
  constructor
  · rw [key k hk (by omega), key' k hk (by omega), h2 (k + 1) (by omega) (by omega), h1 (k - 1) (by omega)]
    unfold toRad
    field_simp
    ring
  · rw [key (k + 1) (by omega) (by omega), key' (k + 1) (by omega) (by omega), h2 (k + 1 + 1) (by omega) (by omega)]
    have e : k + 1 - 1 = k := by omega
    rw [e, h1 k (by omega)]
    unfold toRad
    field_simp
    ring

/-- A longitude that grows by 1° per second from 358° on, in a ring of 100 km: π · 100 km/s of error. -/
example : ∃ v w, calcRipVelocity toRad (samples (fun _ => 100) 0 1 5) [358, 359, 0, 1, 2] 1 = .ok (v, w) ∧
    w.getD 1 0 = 100 * ((toRad 360 - toRad 358) / 2) - 100 * Real.pi := by
  obtain ⟨v, w, v', w', e, e', h, -⟩ := C81_wrap_false (fun _ => 100) (fun t => 358 + t) 0 1 one_pos 5 1 (by norm_num)
    (by norm_num) [358, 359, 0, 1, 2] rfl
    (by
      intro i hi
      have : i = 0 ∨ i = 1 := by omega
      rcases this with rfl | rfl <;> norm_num)
    (by
      intro i hi hi'
      have : i = 2 ∨ i = 3 ∨ i = 4 := by omega
      rcases this with rfl | rfl | rfl <;> norm_num)
  refine ⟨v, w, e, ?_⟩
  rw [velocity_ok _ _ _ _ (by rw [samples_length]; omega) (by rw [samples_length]; omega)] at e'
  injection e' with e'
  injection e' with e1 e2
  rw [h, ← e2, zip_getD _ _ _ (by rw [samples_length]; omega) (by rw [gradient_length, List.length_map, samples_length]; omega),
    samples_getD _ _ _ _ _ (by omega), gradient_getD _ _ _ (by rw [List.length_map, samples_length]; omega), map_samples,
    samples_length, if_neg (by omega), if_neg (by omega), samples_getD _ _ _ _ _ (by omega), samples_getD _ _ _ _ _ (by omega)]
  norm_num

end Verif.Geo
