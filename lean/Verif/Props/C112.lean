import Verif.Model.Orbit
import Verif.Spec.Orbit
import Mathlib.Analysis.Calculus.Deriv.Pow
import Mathlib.Analysis.Calculus.Deriv.Inv
import Mathlib.Analysis.SpecialFunctions.Trigonometric.Deriv
import Mathlib.Tactic.FieldSimp

/-!
# C112: elements of an orbit
-/
namespace Verif.Orb
open Real Spec

/-- A term of the series as a function of the distance. -/
theorem term_deriv (c : ℝ) (k : Nat) {a : ℝ} (ha : 0 < a) : HasDerivAt (fun x => c / x ^ k) (-(k * c / a ^ (k + 1))) a := by
  have h := ((hasDerivAt_pow k a).inv (pow_pos ha k).ne').const_mul c
  have e : (fun x : ℝ => c / x ^ k) = fun x => c * ((fun x : ℝ => x ^ k)⁻¹) x := by
    funext x
    rw [Pi.inv_apply, div_eq_mul_inv]
  rw [e]
  refine h.congr_deriv ?_
  rcases k with _ | k
  · simp
  · have := ha.ne'
    simp only [Nat.add_sub_cancel]
    field_simp
    ring

theorem series_deriv (c0 c1 c2 c3 : ℝ) (k : Nat) {a : ℝ} (ha : 0 < a) :
    HasDerivAt (fun x => c0 / x ^ k + c1 / x ^ (k + 2) + c2 / x ^ (k + 4) + c3 / x ^ (k + 6))
      (-((k * c0) / a ^ (k + 1) + ((k + 2) * c1) / a ^ (k + 3) + ((k + 4) * c2) / a ^ (k + 5) + ((k + 6) * c3) / a ^ (k + 7))) a := by
  have h := (((term_deriv c0 k ha).add (term_deriv c1 (k + 2) ha)).add (term_deriv c2 (k + 4) ha)).add (term_deriv c3 (k + 6) ha)
  refine h.congr_deriv ?_
  push_cast
  ring

/-- The radial frequency squared that belongs to `freqN0`. -/
noncomputable def kap2 (p : Planet) (a : ℝ) : ℝ :=
  p.GM / a ^ 3 * (1 - 3 / 2 * p.J2 * (p.R / a) ^ 2 + 45 / 8 * p.J4 * (p.R / a) ^ 4 - 175 / 16 * p.J6 * (p.R / a) ^ 6)

/-- The vertical frequency squared that belongs to `freqN0`. -/
noncomputable def nu2 (p : Planet) (a : ℝ) : ℝ :=
  p.GM / a ^ 3 * (1 + 9 / 2 * p.J2 * (p.R / a) ^ 2 - 75 / 8 * p.J4 * (p.R / a) ^ 4 + 245 / 16 * p.J6 * (p.R / a) ^ 6)

theorem series_eq (GM R c1 c2 c3 : ℝ) : (fun a : ℝ => GM / a ^ 3 * (1 + c1 * (R / a) ^ 2 + c2 * (R / a) ^ 4 + c3 * (R / a) ^ 6)) =
    fun a => GM / a ^ 3 + GM * c1 * R ^ 2 / a ^ (3 + 2) + GM * c2 * R ^ 4 / a ^ (3 + 4) + GM * c3 * R ^ 6 / a ^ (3 + 6) := by
  funext a
  simp only [div_eq_mul_inv, mul_pow, pow_add, mul_inv, inv_pow]
  ring

theorem series3_deriv (GM R c1 c2 c3 : ℝ) {a : ℝ} (ha : 0 < a) :
    HasDerivAt (fun a : ℝ => GM / a ^ 3 * (1 + c1 * (R / a) ^ 2 + c2 * (R / a) ^ 4 + c3 * (R / a) ^ 6))
      (-(GM / a ^ 4 * (3 + 5 * c1 * (R / a) ^ 2 + 7 * c2 * (R / a) ^ 4 + 9 * c3 * (R / a) ^ 6))) a := by
  rw [series_eq]
  refine (series_deriv GM (GM * c1 * R ^ 2) (GM * c2 * R ^ 4) (GM * c3 * R ^ 6) 3 ha).congr_deriv ?_
  have := ha.ne'
  push_cast
  field_simp
  ring

/-- The frequencies of the code are those that follow from the potential of the planet: `freqN0` is that of the circular motion, and
`eta2` and `chi2` are the ones that belong to it. -/
theorem C112_frequencies (p : Planet) :
    ∃ kap2 nu2 : ℝ → ℝ, Epicyclic (potential p.GM p.R p.J2 p.J4 p.J6) (freqN0 p) kap2 nu2 (eta2 p) (chi2 p) := by
  refine ⟨kap2 p, nu2 p, ?_, ?_, ?_, ?_, ?_⟩
  · intro a ha
    have e : potential p.GM p.R p.J2 p.J4 p.J6 = fun a => -p.GM / a ^ 1 + (-p.GM * p.J2 * p.R ^ 2 / 2) / a ^ (1 + 2) +
        (p.GM * p.J4 * p.R ^ 4 * (3 / 8)) / a ^ (1 + 4) + (-p.GM * p.J6 * p.R ^ 6 * (5 / 16)) / a ^ (1 + 6) := by
      funext a
      unfold potential
      simp only [div_eq_mul_inv, mul_pow, pow_add, mul_inv, inv_pow, pow_one]
      ring
    rw [e]
    refine (series_deriv _ _ _ _ 1 ha).congr_deriv ?_
    have := ha.ne'
    unfold freqN0
    push_cast
    field_simp
    ring
  · intro a ha
    have e : freqN0 p = fun a => p.GM / a ^ 3 * (1 + (3 / 2 * p.J2) * (p.R / a) ^ 2 + (-15 / 8 * p.J4) * (p.R / a) ^ 4 +
        (35 / 16 * p.J6) * (p.R / a) ^ 6) := by
      funext a
      unfold freqN0
      ring
    rw [e]
    refine (series3_deriv p.GM p.R _ _ _ ha).congr_deriv ?_
    have := ha.ne'
    unfold kap2
    field_simp
    ring
  · intro a ha
    unfold kap2 nu2 freqN0
    ring
  · intro a ha
    have e : kap2 p = fun a => p.GM / a ^ 3 * (1 + (-3 / 2 * p.J2) * (p.R / a) ^ 2 + (45 / 8 * p.J4) * (p.R / a) ^ 4 +
        (-175 / 16 * p.J6) * (p.R / a) ^ 6) := by
      funext a
      unfold kap2
      ring
    rw [e]
    refine (series3_deriv p.GM p.R _ _ _ ha).congr_deriv ?_
    have := ha.ne'
    unfold eta2
    field_simp
    ring
  · intro a ha
    have e : nu2 p = fun a => p.GM / a ^ 3 * (1 + (9 / 2 * p.J2) * (p.R / a) ^ 2 + (-75 / 8 * p.J4) * (p.R / a) ^ 4 +
        (245 / 16 * p.J6) * (p.R / a) ^ 6) := by
      funext a
      unfold nu2
      ring
    rw [e]
    refine (series3_deriv p.GM p.R _ _ _ ha).congr_deriv ?_
    have := ha.ne'
    unfold chi2
    field_simp
    ring

example : freqN0 ⟨1, 1, 2, 0, 0⟩ 1 = 4 ∧ kap2 ⟨1, 1, 2, 0, 0⟩ 1 = -2 ∧ nu2 ⟨1, 1, 2, 0, 0⟩ 1 = 10 := by
  norm_num [freqN0, kap2, nu2]

theorem square_rate {GM a x c : ℝ} (hG : 0 ≤ GM) (ha : 0 < a) (h : x = √(GM / a ^ 3) * c) : x ^ 2 = GM / a ^ 3 * c ^ 2 := by
  rw [h, mul_pow, sq_sqrt (div_nonneg hG (pow_pos ha 3).le)]

/-- For circular orbits in the plane of the equator, `n`, `n - pperi` and `n - pnoeu` agree with the frequencies of the circular motion
and of the radial and vertical oscillations, up to terms of the order 8 in the ratio of the radii. -/
theorem C112_expansion (J2 J4 J6 : ℝ) : ∃ f g h : ℝ → ℝ, Continuous f ∧ Continuous g ∧ Continuous h ∧
    ∀ (GM R a : ℝ), 0 ≤ GM → 0 < a → ∀ kap2 nu2 : ℝ → ℝ,
      Epicyclic (potential GM R J2 J4 J6) (freqN0 ⟨GM, R, J2, J4, J6⟩) kap2 nu2 (eta2 ⟨GM, R, J2, J4, J6⟩) (chi2 ⟨GM, R, J2, J4, J6⟩) →
      (rates ⟨GM, R, J2, J4, J6⟩ a 0 0).n ^ 2 = freqN0 ⟨GM, R, J2, J4, J6⟩ a + GM / a ^ 3 * (R / a) ^ 8 * f (R / a) ∧
      (rates ⟨GM, R, J2, J4, J6⟩ a 0 0).kappa ^ 2 = kap2 a + GM / a ^ 3 * (R / a) ^ 8 * g (R / a) ∧
      (rates ⟨GM, R, J2, J4, J6⟩ a 0 0).nu ^ 2 = nu2 a + GM / a ^ 3 * (R / a) ^ 8 * h (R / a) := by
  let f : ℝ → ℝ := fun x => (-15 / 16 * J4 - 9 / 32 * J2 ^ 2) ^ 2 +
    2 * (3 / 4 * J2) * (35 / 32 * J6 + 45 / 64 * J2 * J4 + 27 / 128 * J2 ^ 3) +
    2 * (-15 / 16 * J4 - 9 / 32 * J2 ^ 2) * (35 / 32 * J6 + 45 / 64 * J2 * J4 + 27 / 128 * J2 ^ 3) * x ^ 2 +
    (35 / 32 * J6 + 45 / 64 * J2 * J4 + 27 / 128 * J2 ^ 3) ^ 2 * x ^ 4
  let g : ℝ → ℝ := fun x => (45 / 16 * J4 - 9 / 32 * J2 ^ 2) ^ 2 +
    2 * (-3 / 4 * J2) * (-175 / 32 * J6 + 135 / 64 * J2 * J4 - 27 / 128 * J2 ^ 3) +
    2 * (45 / 16 * J4 - 9 / 32 * J2 ^ 2) * (-175 / 32 * J6 + 135 / 64 * J2 * J4 - 27 / 128 * J2 ^ 3) * x ^ 2 +
    (-175 / 32 * J6 + 135 / 64 * J2 * J4 - 27 / 128 * J2 ^ 3) ^ 2 * x ^ 4
  let h : ℝ → ℝ := fun x => (-75 / 16 * J4 - 81 / 32 * J2 ^ 2) ^ 2 +
    2 * (9 / 4 * J2) * (245 / 32 * J6 + 675 / 64 * J2 * J4 + 729 / 128 * J2 ^ 3) +
    2 * (-75 / 16 * J4 - 81 / 32 * J2 ^ 2) * (245 / 32 * J6 + 675 / 64 * J2 * J4 + 729 / 128 * J2 ^ 3) * x ^ 2 +
    (245 / 32 * J6 + 675 / 64 * J2 * J4 + 729 / 128 * J2 ^ 3) ^ 2 * x ^ 4
  refine ⟨f, g, h, by fun_prop, by fun_prop, by fun_prop, fun GM R a hG ha k2 n2 he => ?_⟩
  have hk : k2 a = kap2 ⟨GM, R, J2, J4, J6⟩ a := by
    have e : freqN0 ⟨GM, R, J2, J4, J6⟩ = fun a => GM / a ^ 3 * (1 + (3 / 2 * J2) * (R / a) ^ 2 + (-15 / 8 * J4) * (R / a) ^ 4 +
        (35 / 16 * J6) * (R / a) ^ 6) := by
      funext a
      unfold freqN0
      ring
    have h1 := he.radial a ha
    rw [e] at h1
    have h2 := h1.unique (series3_deriv GM R _ _ _ ha)
    have := ha.ne'
    rw [div_eq_iff this] at h2
    have h3 : k2 a = 4 * (GM / a ^ 3 * (1 + (3 / 2 * J2) * (R / a) ^ 2 + (-15 / 8 * J4) * (R / a) ^ 4 +
        (35 / 16 * J6) * (R / a) ^ 6)) + -(GM / a ^ 4 * (3 + 5 * (3 / 2 * J2) * (R / a) ^ 2 + 7 * (-15 / 8 * J4) * (R / a) ^ 4 +
        9 * (35 / 16 * J6) * (R / a) ^ 6)) * a := by linarith
    rw [h3]
    unfold kap2
    field_simp
    ring
  have hn : n2 a = nu2 ⟨GM, R, J2, J4, J6⟩ a := by
    have h1 := he.vertical a ha
    rw [hk] at h1
    have h2 : n2 a = 2 * freqN0 ⟨GM, R, J2, J4, J6⟩ a - kap2 ⟨GM, R, J2, J4, J6⟩ a := by linarith
    rw [h2]
    unfold kap2 nu2 freqN0
    ring
  rw [hk, hn]
  refine ⟨?_, ?_, ?_⟩
  · rw [square_rate (c := 1 + 3 / 4 * J2 * (R / a) ^ 2 + (-15 / 16 * J4 - 9 / 32 * J2 ^ 2) * (R / a) ^ 4 +
      (35 / 32 * J6 + 45 / 64 * J2 * J4 + 27 / 128 * J2 ^ 3) * (R / a) ^ 6) hG ha (by simp only [rates, meanMotion]; ring)]
    simp only [freqN0, f]
    ring
  · rw [square_rate (c := 1 - 3 / 4 * J2 * (R / a) ^ 2 + (45 / 16 * J4 - 9 / 32 * J2 ^ 2) * (R / a) ^ 4 +
      (-175 / 32 * J6 + 135 / 64 * J2 * J4 - 27 / 128 * J2 ^ 3) * (R / a) ^ 6) hG ha (by simp only [rates, meanMotion, periRate]; ring)]
    simp only [kap2, g]
    ring
  · rw [square_rate (c := 1 + 9 / 4 * J2 * (R / a) ^ 2 + (-75 / 16 * J4 - 81 / 32 * J2 ^ 2) * (R / a) ^ 4 +
      (245 / 32 * J6 + 675 / 64 * J2 * J4 + 729 / 128 * J2 ^ 3) * (R / a) ^ 6) hG ha (by simp only [rates, meanMotion, nodeRate]; ring)]
    simp only [nu2, h]
    ring

/-- Without oblateness the agreement is exact. -/
example {GM a : ℝ} (hG : 0 ≤ GM) (ha : 0 < a) : (rates ⟨GM, 0, 0, 0, 0⟩ a 0 0).n ^ 2 = GM / a ^ 3 := by
  rw [square_rate (c := 1) hG ha (by simp [rates, meanMotion])]
  ring

/-- The equations that the elements of one turn solve, with the corrections and rates that were given. -/
theorem solve_spec {o c : Cyl} {w : Rates} (hn : w.n ≠ 0) (hk : w.kappa ≠ 0) (hv : w.nu ≠ 0) (ha : 0 < (solve o c w).a) :
    let l := solve o c w
    o.r = l.a * (1 - l.e * cos l.A) + c.r ∧ o.vr = l.a * w.kappa * (l.e * sin l.A) + c.vr ∧
    o.vL = w.n * (1 + 2 * l.e * cos l.A) + c.vL ∧ o.L = l.lam + 2 * l.e / (w.kappa / w.n) * sin l.A + c.L ∧
    o.z = l.a * l.i * sin l.B + c.z ∧ o.vz = l.a * l.i * w.nu * cos l.B + c.vz := by
  intro l
  set u := (o.vL - w.n - c.vL) / (2 * w.n) with hu
  set v := (o.vr - c.vr) / (l.a * w.kappa) with hvd
  have hla : l.a = (o.r - c.r) / (1 - u) := rfl
  have ha' : 0 < l.a := ha
  have h1u : 1 - u ≠ 0 := by
    intro h0
    rw [hla, h0, div_zero] at ha'
    exact lt_irrefl _ ha'
  have hr : o.r - c.r = l.a * (1 - u) := by rw [hla, div_mul_cancel₀ _ h1u]
  have hA : l.A = Complex.arg ⟨u, v⟩ := by
    change Complex.arg ⟨1 - (o.r - c.r) / l.a, v⟩ = _
    rw [hr, mul_div_cancel_left₀ _ ha'.ne', sub_sub_cancel]
  have hE : l.e = ‖(⟨u, v⟩ : ℂ)‖ := by
    rw [Complex.norm_def, Complex.normSq_mk]
    change √(u ^ 2 + v ^ 2) = _
    rw [sq, sq]
  have c1 : l.e * cos l.A = u := by rw [hE, hA, Complex.norm_mul_cos_arg]
  have s1 : l.e * sin l.A = v := by rw [hE, hA, Complex.norm_mul_sin_arg]
  have hB : l.B = Complex.arg ⟨(o.vz - c.vz) / w.nu, o.z - c.z⟩ := rfl
  have hI : l.a * l.i = ‖(⟨(o.vz - c.vz) / w.nu, o.z - c.z⟩ : ℂ)‖ := by
    rw [Complex.norm_def, Complex.normSq_mk]
    change l.a * √(((o.z - c.z) / l.a) ^ 2 + ((o.vz - c.vz) / (l.a * w.nu)) ^ 2) = _
    rw [← sqrt_sq ha'.le, ← sqrt_mul (sq_nonneg _), sqrt_sq ha'.le]
    congr 1
    have := ha'.ne'
    field_simp
    ring
  have c2 : l.a * l.i * cos l.B = (o.vz - c.vz) / w.nu := by rw [hI, hB, Complex.norm_mul_cos_arg]
  have s2 : l.a * l.i * sin l.B = o.z - c.z := by rw [hI, hB, Complex.norm_mul_sin_arg]
  refine ⟨?_, ?_, ?_, ?_, ?_, ?_⟩
  · rw [c1, ← hr]; ring
  · rw [s1, hvd, mul_div_cancel₀ _ (mul_ne_zero ha'.ne' hk)]; ring
  · rw [mul_assoc, c1, hu]
    field_simp
    ring
  · have hlam : l.lam = o.L - c.L - 2 * (w.n / w.kappa) * (o.vr - c.vr) / (l.a * w.kappa) := rfl
    rw [hlam, mul_div_assoc, ← hvd, ← s1]
    field_simp
    ring
  · rw [s2]; ring
  · rw [mul_right_comm, c2, div_mul_cancel₀ _ hv]; ring

theorem phase_deriv (A k m : ℝ) : HasDerivAt (fun t : ℝ => m * (A + k * t)) (m * k) 0 := by
  have h := (((hasDerivAt_id (0 : ℝ)).const_mul k).const_add A).const_mul m
  simpa using h

theorem cos_phase (A k m : ℝ) : HasDerivAt (fun t : ℝ => cos (m * (A + k * t))) (-sin (m * A) * (m * k)) 0 := by
  have h := (phase_deriv A k m).cos
  simpa using h

theorem sin_phase (A k m : ℝ) : HasDerivAt (fun t : ℝ => sin (m * (A + k * t))) (cos (m * A) * (m * k)) 0 := by
  have h := (phase_deriv A k m).sin
  simpa using h

theorem radius_deriv (a e i eta chi al A B k v : ℝ) : HasDerivAt (fun t => radius a e i eta chi al (A + k * t) (B + v * t))
    (a * (e * k * sin A + e ^ 2 * eta * k * sin (2 * A) - i ^ 2 * (al / 2) * v * sin (2 * B))) 0 := by
  have h1 := (cos_phase A k 1).const_mul e
  have h2 := ((cos_phase A k 2).const_mul (eta / 2)).const_sub (3 * eta / 2 - 1) |>.const_mul (e ^ 2)
  have h3 := ((cos_phase B v 2).const_mul (al / 4)).const_add (3 * chi / 4 - 1) |>.const_mul (i ^ 2)
  have h := (((h1.const_sub 1).add h2).add h3).const_mul a
  simp only [one_mul] at h
  refine h.congr_deriv ?_
  ring

theorem equation_deriv (e i eta al k v A B kap nu m : ℝ) : HasDerivAt (fun t => m * t + equation e i eta al k v (A + kap * t) (B + nu * t))
    (m + 2 * e / k * kap * cos A + e ^ 2 * (3 / 4 + eta / 2) / k * (2 * kap) * cos (2 * A) - i ^ 2 * (al / 4) / v * (2 * nu) * cos (2 * B)) 0 := by
  have h0 : HasDerivAt (fun t : ℝ => m * t) m 0 := by simpa using (hasDerivAt_id (0 : ℝ)).const_mul m
  have h1 := (sin_phase A kap 1).const_mul (2 * e / k)
  have h2 := (sin_phase A kap 2).const_mul (e ^ 2 * (3 / 4 + eta / 2) / k)
  have h3 := (sin_phase B nu 2).const_mul (i ^ 2 * (al / 4) / v)
  have h := h0.add ((h1.add h2).sub h3)
  simp only [one_mul] at h
  refine h.congr_deriv ?_
  ring

theorem height_deriv (a e i c1 c2 A B k v : ℝ) : HasDerivAt (fun t => height a e i c1 c2 (A + k * t) (B + v * t))
    (a * i * (v * cos B + e * (c1 / 2) * (k + v) * cos (A + B) - e * (3 / 2 * c2) * (v - k) * cos (B - A))) 0 := by
  have h1 := sin_phase B v 1
  have h2 := (sin_phase (A + B) (k + v) 1).const_mul (e * (c1 / 2))
  have h3 := (sin_phase (B - A) (v - k) 1).const_mul (e * (3 / 2 * c2))
  have h := ((h1.add h2).sub h3).const_mul (a * i)
  simp only [one_mul] at h
  refine (h.congr_deriv (by ring)).congr_of_eventuallyEq (Filter.Eventually.of_forall fun t => ?_)
  have e1 : A + k * t + (B + v * t) = A + B + (k + v) * t := by ring
  have e2 : B + v * t - (A + k * t) = B - A + (v - k) * t := by ring
  simp only [height, Pi.add_apply, Pi.sub_apply, e1, e2]

/-- The state written out, with the corrections of the code. -/
theorem state_iff {l : Elem} {w : Rates} {o : Cyl} (hn : w.n ≠ 0) (hk : w.kappa ≠ 0) (hv : w.nu ≠ 0) :
    State l.a l.e l.i l.lam l.A l.B w.n w.kappa w.nu w.eta2 w.chi2 o.r o.L o.z o.vr o.vL o.vz ↔
    o.r = l.a * (1 - l.e * cos l.A) + (corrections w l).r ∧ o.vr = l.a * w.kappa * (l.e * sin l.A) + (corrections w l).vr ∧
    o.vL = w.n * (1 + 2 * l.e * cos l.A) + (corrections w l).vL ∧
    o.L = l.lam + 2 * l.e / (w.kappa / w.n) * sin l.A + (corrections w l).L ∧
    o.z = l.a * l.i * sin l.B + (corrections w l).z ∧ o.vz = l.a * l.i * w.nu * cos l.B + (corrections w l).vz := by
  have e1 : w.alph2 = (2 * w.nu + w.kappa) / 3 * (2 * w.nu - w.kappa) := by
    unfold Rates.alph2 Rates.alpha1 Rates.alpha2; ring
  have e2 : w.alpha1 = (2 * w.nu + w.kappa) / 3 := by unfold Rates.alpha1; ring
  have e3 : w.alpha2 = 2 * w.nu - w.kappa := rfl
  have r0 : l.a * (1 - l.e * cos l.A) + (corrections w l).r =
      radius l.a l.e l.i (w.eta2 / w.kappa ^ 2) (w.chi2 / w.kappa ^ 2) (w.chi2 / w.alph2) l.A l.B := by
    simp only [corrections, radius, div_eq_mul_inv, mul_inv]; ring
  have L0 : l.lam + 2 * l.e / (w.kappa / w.n) * sin l.A + (corrections w l).L =
      l.lam + equation l.e l.i (w.eta2 / w.kappa ^ 2) (w.chi2 / w.alph2) (w.kappa / w.n) (w.nu / w.n) l.A l.B := by
    simp only [corrections, equation, div_eq_mul_inv, mul_inv, inv_inv]; ring
  have z0 : l.a * l.i * sin l.B + (corrections w l).z =
      height l.a l.e l.i (w.chi2 / (w.kappa * w.alpha1)) (w.chi2 / (w.kappa * w.alpha2)) l.A l.B := by
    simp only [corrections, height]; ring
  have vr0 : l.a * w.kappa * (l.e * sin l.A) + (corrections w l).vr = l.a * (l.e * w.kappa * sin l.A +
      l.e ^ 2 * (w.eta2 / w.kappa ^ 2) * w.kappa * sin (2 * l.A) - l.i ^ 2 * (w.chi2 / w.alph2 / 2) * w.nu * sin (2 * l.B)) := by
    simp only [corrections, div_eq_mul_inv, mul_inv]; ring
  have vL0 : w.n * (1 + 2 * l.e * cos l.A) + (corrections w l).vL =
      w.n * secular l.e l.i (w.eta2 / w.kappa ^ 2) (w.chi2 / w.kappa ^ 2) (w.kappa / w.n) + 2 * l.e / (w.kappa / w.n) * w.kappa * cos l.A +
      l.e ^ 2 * (3 / 4 + w.eta2 / w.kappa ^ 2 / 2) / (w.kappa / w.n) * (2 * w.kappa) * cos (2 * l.A) -
      l.i ^ 2 * (w.chi2 / w.alph2 / 4) / (w.nu / w.n) * (2 * w.nu) * cos (2 * l.B) := by
    have t1 : 2 * l.e / (w.kappa / w.n) * w.kappa = 2 * l.e * w.n := by field_simp
    have t2 : l.e ^ 2 * (3 / 4 + w.eta2 / w.kappa ^ 2 / 2) / (w.kappa / w.n) * (2 * w.kappa) =
        l.e ^ 2 * (3 / 2 + w.eta2 / w.kappa ^ 2) * w.n := by field_simp; ring
    have t3 : l.i ^ 2 * (w.chi2 / w.alph2 / 4) / (w.nu / w.n) * (2 * w.nu) = l.i ^ 2 * (w.chi2 / w.alph2 / 2) * w.n := by
      generalize w.chi2 / w.alph2 = q
      field_simp
      ring
    rw [t1, t2, t3]
    simp only [corrections, secular, div_pow]
    ring
  have vz0 : l.a * l.i * w.nu * cos l.B + (corrections w l).vz = l.a * l.i * (w.nu * cos l.B +
      l.e * (w.chi2 / (w.kappa * w.alpha1) / 2) * (w.kappa + w.nu) * cos (l.A + l.B) -
      l.e * (3 / 2 * (w.chi2 / (w.kappa * w.alpha2))) * (w.nu - w.kappa) * cos (l.B - l.A)) := by
    simp only [corrections, div_eq_mul_inv]; ring
  rw [r0, L0, z0, vr0, vL0, vz0]
  constructor
  · rintro ⟨h1, h2, h3, h4, h5, h6⟩
    rw [← e1] at h1 h2 h4 h5
    rw [← e2, ← e3] at h3 h6
    exact ⟨h1, h4.unique (radius_deriv ..), h5.unique (equation_deriv ..), h2, h3, h6.unique (height_deriv ..)⟩
  · rintro ⟨h1, h4, h5, h2, h3, h6⟩
    constructor
    · rw [h1, e1]
    · rw [h2, e1]
    · rw [h3, e2, e3]
    · rw [← e1, h4]; exact radius_deriv ..
    · rw [← e1, h5]; exact equation_deriv ..
    · rw [← e2, ← e3, h6]; exact height_deriv ..

/-- Elements that a turn of the loop does not change belong to the given position and velocity: the body has this position, and if the
angles grow at the rates that belong to the elements, it has this velocity. -/
theorem C112_fixed_partial {p : Planet} {o : Cyl} {s : Elem × Cyl × Rates} (h : step p o s = s) (ha : 0 < s.1.a)
    (hn : (rates p s.1.a s.1.e s.1.i).n ≠ 0) (hk : (rates p s.1.a s.1.e s.1.i).kappa ≠ 0) (hv : (rates p s.1.a s.1.e s.1.i).nu ≠ 0) :
    State s.1.a s.1.e s.1.i s.1.lam s.1.A s.1.B (rates p s.1.a s.1.e s.1.i).n (rates p s.1.a s.1.e s.1.i).kappa
      (rates p s.1.a s.1.e s.1.i).nu (rates p s.1.a s.1.e s.1.i).eta2 (rates p s.1.a s.1.e s.1.i).chi2 o.r o.L o.z o.vr o.vL o.vz := by
  obtain ⟨l, c, w⟩ := s
  have h1 : solve o c w = l := congrArg (fun q => q.1) h
  have h2 : corrections w l = c := by rw [← h1]; exact congrArg (fun q => q.2.1) h
  have h3 : rates p l.a l.e l.i = w := by rw [← h1]; exact congrArg (fun q => q.2.2) h
  simp only [h3] at *
  rw [state_iff hn hk hv, h2]
  have := solve_spec hn hk hv (by rw [h1]; exact ha)
  rwa [h1] at this

/-- The other direction: the elements from which a position and a velocity come are not changed by the loop. -/
theorem C112_inverse {p : Planet} {o : Cyl} {l : Elem} {w : Rates} (hw : w = rates p l.a l.e l.i)
    (ha : 0 < l.a) (he : 0 < l.e) (hi : 0 < l.i) (hA : l.A ∈ Set.Ioc (-π) π) (hB : l.B ∈ Set.Ioc (-π) π)
    (h1u : l.e * cos l.A ≠ 1) (hn : w.n ≠ 0) (hk : w.kappa ≠ 0) (hv : w.nu ≠ 0)
    (h : State l.a l.e l.i l.lam l.A l.B w.n w.kappa w.nu w.eta2 w.chi2 o.r o.L o.z o.vr o.vL o.vz) :
    step p o (l, corrections w l, w) = (l, corrections w l, w) := by
  have key : solve o (corrections w l) w = l := by
    obtain ⟨h1, h2, h3, h4, h5, h6⟩ := (state_iff hn hk hv).mp h
    generalize corrections w l = c at *
    have u1 : (o.vL - w.n - c.vL) / (2 * w.n) = l.e * cos l.A := by rw [h3]; field_simp; ring
    have u2 : (o.r - c.r) / (1 - l.e * cos l.A) = l.a := by
      rw [h1, add_sub_cancel_right, mul_div_cancel_right₀ _ (sub_ne_zero.mpr (Ne.symm h1u))]
    have u3 : (o.vr - c.vr) / (l.a * w.kappa) = l.e * sin l.A := by
      rw [h2, add_sub_cancel_right, mul_div_cancel_left₀ _ (mul_ne_zero ha.ne' hk)]
    have u4 : (o.r - c.r) / l.a = 1 - l.e * cos l.A := by rw [h1, add_sub_cancel_right, mul_div_cancel_left₀ _ ha.ne']
    have u5 : (o.vz - c.vz) / w.nu = l.a * l.i * cos l.B := by rw [h6]; field_simp; ring
    have u6 : o.z - c.z = l.a * l.i * sin l.B := by rw [h5]; ring
    have pol : ∀ {r t : ℝ}, 0 < r → t ∈ Set.Ioc (-π) π → arctan (r * cos t) (r * sin t) = t := by
      intro r t hr ht
      have := Complex.arg_mul_cos_add_sin_mul_I hr ht
      have e : (⟨r * cos t, r * sin t⟩ : ℂ) = r * (Complex.cos t + Complex.sin t * Complex.I) := by
        apply Complex.ext
        · simp only [← Complex.ofReal_cos, ← Complex.ofReal_sin, Complex.mul_re, Complex.add_re, Complex.ofReal_re, Complex.ofReal_im,
            Complex.mul_im, Complex.I_re, Complex.I_im, Complex.add_im]
          ring
        · simp only [← Complex.ofReal_cos, ← Complex.ofReal_sin, Complex.mul_re, Complex.add_re, Complex.ofReal_re, Complex.ofReal_im,
            Complex.mul_im, Complex.I_re, Complex.I_im, Complex.add_im]
          ring
      unfold arctan
      rw [e, this]
    unfold solve
    simp only [u1, u2]
    simp only [mul_div_assoc, u3, u4, u5, u6]
    obtain ⟨a, e, i, lam, A, B⟩ := l
    simp only at *
    congr 1
    · rw [mul_pow, mul_pow, ← mul_add, cos_sq_add_sin_sq, mul_one, sqrt_sq he.le]
    · rw [show a * i * (sin B / a) = i * sin B by field_simp, show (o.vz - c.vz) / (a * w.nu) = i * cos B by
        rw [← div_div, div_right_comm, u5]; field_simp, mul_pow, mul_pow, ← mul_add, sin_sq_add_cos_sq, mul_one, sqrt_sq hi.le]
    · rw [h4]; field_simp; ring
    · rw [sub_sub_cancel]; exact pol he hA
    · exact pol (mul_pos ha hi) hB
  unfold step
  simp only [key, ← hw]

theorem kepler_rates {GM a e i : ℝ} : rates ⟨GM, 0, 0, 0, 0⟩ a e i = ⟨√(GM / a ^ 3), √(GM / a ^ 3), √(GM / a ^ 3), GM / a ^ 3, GM / a ^ 3⟩ := by
  simp [rates, meanMotion, periRate, nodeRate, eta2, chi2]

/-- Such a state for an inclined ellipse. -/
example : ∃ o : Cyl, step ⟨1, 0, 0, 0, 0⟩ o (⟨1, 1 / 2, 1 / 3, 1, 0, 0⟩, corrections ⟨1, 1, 1, 1, 1⟩ ⟨1, 1 / 2, 1 / 3, 1, 0, 0⟩, ⟨1, 1, 1, 1, 1⟩) =
    (⟨1, 1 / 2, 1 / 3, 1, 0, 0⟩, corrections ⟨1, 1, 1, 1, 1⟩ ⟨1, 1 / 2, 1 / 3, 1, 0, 0⟩, ⟨1, 1, 1, 1, 1⟩) := by
  let l : Elem := ⟨1, 1 / 2, 1 / 3, 1, 0, 0⟩
  let w : Rates := ⟨1, 1, 1, 1, 1⟩
  have hpi : (0 : ℝ) ∈ Set.Ioc (-π) π := ⟨by linarith [pi_pos], pi_pos.le⟩
  refine ⟨⟨l.a * (1 - l.e * cos l.A) + (corrections w l).r, l.lam + 2 * l.e / (w.kappa / w.n) * sin l.A + (corrections w l).L,
    l.a * l.i * sin l.B + (corrections w l).z, l.a * w.kappa * (l.e * sin l.A) + (corrections w l).vr,
    w.n * (1 + 2 * l.e * cos l.A) + (corrections w l).vL, l.a * l.i * w.nu * cos l.B + (corrections w l).vz⟩, ?_⟩
  refine C112_inverse (l := l) (w := w) ?_ (by norm_num [l]) (by norm_num [l]) (by norm_num [l]) hpi hpi (by norm_num [l])
    (by norm_num [w]) (by norm_num [w]) (by norm_num [w]) ?_
  · rw [kepler_rates]; norm_num [w, l]
  · exact (state_iff (by norm_num [w]) (by norm_num [w]) (by norm_num [w])).mpr ⟨rfl, rfl, rfl, rfl, rfl, rfl⟩

theorem circular_steps {p : Planet} {o : Cyl} (hr : 0 < o.r) (hz : o.z = 0) (hvr : o.vr = 0) (hvz : o.vz = 0)
    (hL : o.vL = meanMotion p o.r 0 0) :
    (∀ l : Elem, step p o (l, ⟨0, 0, 0, 0, 0, 0⟩, rates p o.r 0 0) = (⟨o.r, 0, 0, o.L, 0, 0⟩, ⟨0, 0, 0, 0, 0, 0⟩, rates p o.r 0 0)) ∧
    ∀ k, (step p o)^[k + 1] (⟨o.r, 0, 0, 0, 0, 0⟩, ⟨0, 0, 0, 0, 0, 0⟩, rates p o.r 0 0) =
      (⟨o.r, 0, 0, o.L, 0, 0⟩, ⟨0, 0, 0, 0, 0, 0⟩, rates p o.r 0 0) := by
  have hs : ∀ l : Elem, step p o (l, ⟨0, 0, 0, 0, 0, 0⟩, rates p o.r 0 0) = (⟨o.r, 0, 0, o.L, 0, 0⟩, ⟨0, 0, 0, 0, 0, 0⟩, rates p o.r 0 0) := by
    intro l
    have h1 : solve o ⟨0, 0, 0, 0, 0, 0⟩ (rates p o.r 0 0) = ⟨o.r, 0, 0, o.L, 0, 0⟩ := by
      have z0 : arctan 0 0 = 0 := Complex.arg_zero
      have hn : (rates p o.r 0 0).n = o.vL := hL.symm
      simp [solve, hz, hvr, hvz, hn, div_self hr.ne', z0]
    simp only [step, h1]
    simp [corrections]
  have hi : ∀ k, (step p o)^[k + 1] (⟨o.r, 0, 0, 0, 0, 0⟩, ⟨0, 0, 0, 0, 0, 0⟩, rates p o.r 0 0) =
      (⟨o.r, 0, 0, o.L, 0, 0⟩, ⟨0, 0, 0, 0, 0, 0⟩, rates p o.r 0 0) := by
    intro k
    induction k with
    | zero => exact hs _
    | succ k ih => rw [Function.iterate_succ_apply', ih, hs]
  exact ⟨hs, hi⟩

/-- A circular orbit in the plane of the equator, with the angular velocity that the rates give, is found by the loop. -/
theorem C112_circular {p : Planet} {o : Cyl} (hr : 0 < o.r) (hz : o.z = 0) (hvr : o.vr = 0) (hvz : o.vz = 0)
    (hL : o.vL = meanMotion p o.r 0 0) : orbit p o = ⟨o.r, 0, 0, o.L, 0, 0⟩ := by
  unfold orbit
  rw [(circular_steps hr hz hvr hvz hL).2 100]

example : orbit ⟨4, 0, 0, 0, 0⟩ ⟨1, 3, 0, 0, 2, 0⟩ = ⟨1, 0, 0, 3, 0, 0⟩ := by
  refine C112_circular (by norm_num) rfl rfl rfl ?_
  rw [show (4 : ℝ) = 2 ^ 2 by norm_num]
  simp [meanMotion]

/-- Without oblateness, the 101 turns take the distance `r` near to the radius `c = hz²/GM` of the circular orbit with this angular
momentum: the ratio of both becomes its power with the exponent `(3/4)^101`. -/
theorem C112_axis {GM r hz : ℝ} (hG : 0 < GM) (hr : 0 < r) (hh : 0 < hz) :
    axisFromMomentum ⟨GM, 0, 0, 0, 0⟩ r hz / (hz ^ 2 / GM) = (r / (hz ^ 2 / GM)) ^ ((3 / 4 : ℝ) ^ 101) := by
  have hf : ∀ x, freqN0 ⟨GM, 0, 0, 0, 0⟩ x = GM / x ^ 3 := by intro x; simp [freqN0]
  set c := hz ^ 2 / GM with hc
  have c0 : 0 < c := div_pos (pow_pos hh 2) hG
  have hstep : ∀ x, 0 < x → 0 < √(hz / √(GM / x ^ 3)) ∧ √(hz / √(GM / x ^ 3)) / c = (x / c) ^ (3 / 4 : ℝ) := by
    intro x hx
    have hx3 := pow_pos hx 3
    have h1 : 0 < hz / √(GM / x ^ 3) := div_pos hh (sqrt_pos.mpr (div_pos hG hx3))
    refine ⟨sqrt_pos.mpr h1, ?_⟩
    have hl : 0 ≤ √(hz / √(GM / x ^ 3)) / c := (div_pos (sqrt_pos.mpr h1) c0).le
    have hrr : 0 ≤ (x / c) ^ (3 / 4 : ℝ) := rpow_nonneg (div_pos hx c0).le _
    have e4 : (√(hz / √(GM / x ^ 3)) / c) ^ 4 = ((x / c) ^ (3 / 4 : ℝ)) ^ 4 := by
      have r1 : ((x / c) ^ (3 / 4 : ℝ)) ^ 4 = (x / c) ^ 3 := by
        rw [← rpow_natCast, ← rpow_mul (div_pos hx c0).le, ← rpow_natCast]
        norm_num
      have l1 : (√(hz / √(GM / x ^ 3))) ^ 4 = hz ^ 2 / (GM / x ^ 3) := by
        rw [show (4 : ℕ) = 2 * 2 by rfl, pow_mul, sq_sqrt h1.le, div_pow, sq_sqrt (div_pos hG hx3).le]
      rw [r1, div_pow, l1, hc]
      field_simp
    exact (pow_left_inj₀ hl hrr (by norm_num)).mp e4
  have hk : ∀ k, 0 < (fun r0 => √(hz / √(freqN0 ⟨GM, 0, 0, 0, 0⟩ r0)))^[k] r ∧
      (fun r0 => √(hz / √(freqN0 ⟨GM, 0, 0, 0, 0⟩ r0)))^[k] r / c = (r / c) ^ ((3 / 4 : ℝ) ^ k) := by
    intro k
    induction k with
    | zero => exact ⟨hr, by simp⟩
    | succ k ih =>
      rw [Function.iterate_succ_apply']
      simp only [hf] at ih ⊢
      obtain ⟨i1, i2⟩ := ih
      obtain ⟨s1, s2⟩ := hstep _ i1
      refine ⟨s1, ?_⟩
      rw [s2, i2, ← rpow_mul (div_pos hr c0).le, pow_succ]
  exact (hk 101).2

/-- A circular orbit is a fixed point of these turns. -/
example : axisFromMomentum ⟨4, 0, 0, 0, 0⟩ 1 2 = 1 := by
  have := C112_axis (GM := 4) (r := 1) (hz := 2) (by norm_num) (by norm_num) (by norm_num)
  rwa [show (2 : ℝ) ^ 2 / 4 = 1 by norm_num, div_one, div_one, one_rpow] at this

theorem fmod_range (x : ℝ) {y : ℝ} (hy : 0 < y) : 0 ≤ fmod x y ∧ fmod x y < y := by
  have h1 := Int.floor_le (x / y)
  have h2 := Int.lt_floor_add_one (x / y)
  rw [le_div_iff₀ hy] at h1
  rw [div_lt_iff₀ hy] at h2
  unfold fmod
  constructor <;> nlinarith

theorem fmod_of_range {x y : ℝ} (h0 : 0 ≤ x) (h1 : x < y) : fmod x y = x := by
  have hy := h0.trans_lt h1
  have : ⌊x / y⌋ = 0 := Int.floor_eq_iff.mpr ⟨by simpa using div_nonneg h0 hy.le, by simpa using (div_lt_one hy).mpr h1⟩
  rw [fmod, this]
  simp

/-- The angles of the result lie between 0 and 360 degrees and differ from those that were found by whole turns. -/
theorem C112_angles (x : ℝ) : 0 ≤ outAngle x ∧ outAngle x < 360 ∧ ∃ k : ℤ, outAngle x * (π / 180) = x + k * (2 * π) := by
  obtain ⟨h0, h1⟩ := fmod_range (x * (180 / π) + 360) (y := 360) (by norm_num)
  have e : outAngle x = fmod (x * (180 / π) + 360) 360 := by
    rw [outAngle, amodulo, if_neg (not_lt.mpr h0), fmod_of_range h0 h1]
  rw [e]
  refine ⟨h0, h1, 1 - ⌊(x * (180 / π) + 360) / 360⌋, ?_⟩
  have := pi_pos.ne'
  rw [fmod]
  push_cast
  field_simp
  ring

example : outAngle (-π / 2) = 270 := by
  have e : -π / 2 * (180 / π) + 360 = 270 := by
    have := pi_pos.ne'
    field_simp
    norm_num
  rw [outAngle, e, fmod_of_range (by norm_num) (by norm_num), amodulo, if_neg (by norm_num), fmod_of_range (by norm_num) (by norm_num)]

theorem cos_turn (x : ℝ) (m : ℤ) {y : ℝ} (h : y = x + m * (2 * π)) : cos y = cos x := by rw [h, cos_add_int_mul_two_pi]

theorem sin_turn (x : ℝ) (m : ℤ) {y : ℝ} (h : y = x + m * (2 * π)) : sin y = sin x := by rw [h, sin_add_int_mul_two_pi]

theorem radius_turn (a e i eta chi al M F : ℝ) (j k : ℤ) :
    radius a e i eta chi al (M + j * (2 * π)) (F + k * (2 * π)) = radius a e i eta chi al M F := by
  unfold radius
  rw [cos_turn M j rfl, cos_turn (2 * M) (2 * j) (y := 2 * (M + j * (2 * π))) (by push_cast; ring),
    cos_turn (2 * F) (2 * k) (y := 2 * (F + k * (2 * π))) (by push_cast; ring)]

theorem equation_turn (e i eta al kk v M F : ℝ) (j k : ℤ) :
    equation e i eta al kk v (M + j * (2 * π)) (F + k * (2 * π)) = equation e i eta al kk v M F := by
  unfold equation
  rw [sin_turn M j rfl, sin_turn (2 * M) (2 * j) (y := 2 * (M + j * (2 * π))) (by push_cast; ring),
    sin_turn (2 * F) (2 * k) (y := 2 * (F + k * (2 * π))) (by push_cast; ring)]

theorem height_turn (a e i c1 c2 M F : ℝ) (j k : ℤ) :
    height a e i c1 c2 (M + j * (2 * π)) (F + k * (2 * π)) = height a e i c1 c2 M F := by
  unfold height
  rw [sin_turn F k rfl, sin_turn (M + F) (j + k) (y := M + j * (2 * π) + (F + k * (2 * π))) (by push_cast; ring),
    sin_turn (F - M) (k - j) (y := F + k * (2 * π) - (M + j * (2 * π))) (by push_cast; ring)]

/-- Whole turns of the angles of the elements change the longitude by whole turns only. -/
theorem Spec.State.turn {a e i lam A B n kap nu eta2 chi2 r L z vr vL vz : ℝ}
    (h : State a e i lam A B n kap nu eta2 chi2 r L z vr vL vz) (m j k : ℤ) :
    State a e i (lam + m * (2 * π)) (A + j * (2 * π)) (B + k * (2 * π)) n kap nu eta2 chi2 r (L + m * (2 * π)) z vr vL vz := by
  have ea : ∀ t, A + j * (2 * π) + kap * t = A + kap * t + j * (2 * π) := fun t => by ring
  have eb : ∀ t, B + k * (2 * π) + nu * t = B + nu * t + k * (2 * π) := fun t => by ring
  constructor
  · rw [radius_turn]; exact h.r_eq
  · rw [equation_turn, h.L_eq]; ring
  · rw [height_turn]; exact h.z_eq
  · simp only [ea, eb, radius_turn]; exact h.vr_eq
  · simp only [ea, eb, equation_turn]; exact h.vL_eq
  · simp only [ea, eb, height_turn]; exact h.vz_eq

/-- Cylindrical coordinates and rates are those of the position and the velocity. -/
theorem C112_cylindrical {x y : ℝ} (h : x ≠ 0 ∨ y ≠ 0) (z vx vy vz : ℝ) : 0 < (cylindrical x y z vx vy vz).r ∧
    x = (cylindrical x y z vx vy vz).r * cos (cylindrical x y z vx vy vz).L ∧
    y = (cylindrical x y z vx vy vz).r * sin (cylindrical x y z vx vy vz).L ∧ (cylindrical x y z vx vy vz).z = z ∧
    vx = (cylindrical x y z vx vy vz).vr * cos (cylindrical x y z vx vy vz).L -
      (cylindrical x y z vx vy vz).r * (cylindrical x y z vx vy vz).vL * sin (cylindrical x y z vx vy vz).L ∧
    vy = (cylindrical x y z vx vy vz).vr * sin (cylindrical x y z vx vy vz).L +
      (cylindrical x y z vx vy vz).r * (cylindrical x y z vx vy vz).vL * cos (cylindrical x y z vx vy vz).L ∧
    (cylindrical x y z vx vy vz).vz = vz := by
  have hr2 : 0 < x ^ 2 + y ^ 2 := by
    rcases h with h | h
    · exact add_pos_of_pos_of_nonneg (by positivity) (sq_nonneg y)
    · exact add_pos_of_nonneg_of_pos (sq_nonneg x) (by positivity)
  have hr : 0 < √(x ^ 2 + y ^ 2) := sqrt_pos.mpr hr2
  have hn : ‖(⟨x, y⟩ : ℂ)‖ = √(x ^ 2 + y ^ 2) := by rw [Complex.norm_eq_sqrt_sq_add_sq]
  have h0 : (⟨x, y⟩ : ℂ) ≠ 0 := by
    intro hc
    rw [hc, norm_zero] at hn
    exact hr.ne hn
  have hc : cos (arctan x y) = x / √(x ^ 2 + y ^ 2) := by rw [arctan, Complex.cos_arg h0, hn]
  have hs : sin (arctan x y) = y / √(x ^ 2 + y ^ 2) := by rw [arctan, Complex.sin_arg, hn]
  have hcs := cos_sq_add_sin_sq (arctan x y)
  refine ⟨hr, ?_, ?_, rfl, ?_, ?_, rfl⟩
  · simp only [cylindrical]; rw [hc, mul_div_cancel₀ _ hr.ne']
  · simp only [cylindrical]; rw [hs, mul_div_cancel₀ _ hr.ne']
  · simp only [cylindrical]
    rw [mul_div_cancel₀ _ hr.ne']
    linear_combination (-vx) * hcs
  · simp only [cylindrical]
    rw [mul_div_cancel₀ _ hr.ne']
    linear_combination (-vy) * hcs

example : (1 : ℝ) ≠ 0 ∨ (2 : ℝ) ≠ 0 := Or.inl one_ne_zero

/-- The result as a whole: if the loop has converged, then the elements that are returned (with the semi-major axis of the loop) are those of a
body with the given position and velocity. -/
theorem C112_result_partial {p : Planet} {x y z vx vy vz : ℝ} (hxy : x ≠ 0 ∨ y ≠ 0) {s : Elem × Cyl × Rates}
    (hs : s = (step p (cylindrical x y z vx vy vz))^[101] (⟨(cylindrical x y z vx vy vz).r, 0, 0, 0, 0, 0⟩, ⟨0, 0, 0, 0, 0, 0⟩,
      rates p (cylindrical x y z vx vy vz).r 0 0))
    (hf : step p (cylindrical x y z vx vy vz) s = s) (ha : 0 < s.1.a)
    (hn : (rates p s.1.a s.1.e s.1.i).n ≠ 0) (hk : (rates p s.1.a s.1.e s.1.i).kappa ≠ 0) (hv : (rates p s.1.a s.1.e s.1.i).nu ≠ 0) :
    ∃ a0 e i node peri lam, posiGeo p x y z vx vy vz = [a0, e, i, node, peri, lam] ∧
      (0 ≤ node ∧ node < 360) ∧ (0 ≤ peri ∧ peri < 360) ∧ (0 ≤ lam ∧ lam < 360) ∧
      ∃ a r L vr vL, 0 < a ∧ 0 < r ∧ x = r * cos L ∧ y = r * sin L ∧ vx = vr * cos L - r * vL * sin L ∧ vy = vr * sin L + r * vL * cos L ∧
        State a e (i * (π / 180)) (lam * (π / 180)) ((lam - peri) * (π / 180)) ((lam - node) * (π / 180))
          (rates p a e (i * (π / 180))).n (rates p a e (i * (π / 180))).kappa (rates p a e (i * (π / 180))).nu
          (rates p a e (i * (π / 180))).eta2 (rates p a e (i * (π / 180))).chi2 r L z vr vL vz := by
  obtain ⟨c1, c2, c3, c4, c5, c6, c7⟩ := C112_cylindrical hxy z vx vy vz
  have hst := C112_fixed_partial hf ha hn hk hv
  rw [c4, c7] at hst
  set o := cylindrical x y z vx vy vz with ho
  have hpi := pi_pos.ne'
  have hi : s.1.i * (180 / π) * (π / 180) = s.1.i := by field_simp
  obtain ⟨n0, n1, kn, hkn⟩ := C112_angles (s.1.lam - s.1.B)
  obtain ⟨p0, p1, kp, hkp⟩ := C112_angles (s.1.lam - s.1.A)
  obtain ⟨l0, l1, kl, hkl⟩ := C112_angles s.1.lam
  refine ⟨axisFromMomentum p o.r (x * vy - y * vx) * (1 + s.1.e * s.1.e + s.1.i * s.1.i), s.1.e, s.1.i * (180 / π), outAngle (s.1.lam - s.1.B),
    outAngle (s.1.lam - s.1.A), outAngle s.1.lam, ?_, ⟨n0, n1⟩, ⟨p0, p1⟩, ⟨l0, l1⟩, s.1.a, o.r, o.L + kl * (2 * π), o.vr, o.vL, ha, c1, ?_, ?_, ?_, ?_, ?_⟩
  · rw [hs]; rfl
  · rw [cos_add_int_mul_two_pi]; exact c2
  · rw [sin_add_int_mul_two_pi]; exact c3
  · rw [cos_add_int_mul_two_pi, sin_add_int_mul_two_pi]; exact c5
  · rw [cos_add_int_mul_two_pi, sin_add_int_mul_two_pi]; exact c6
  · rw [hi, sub_mul, sub_mul, hkl, hkp, hkn]
    have h := hst.turn kl (kl - kp) (kl - kn)
    have e1 : s.1.lam + kl * (2 * π) - (s.1.lam - s.1.A + kp * (2 * π)) = s.1.A + ((kl - kp : ℤ) : ℝ) * (2 * π) := by push_cast; ring
    have e2 : s.1.lam + kl * (2 * π) - (s.1.lam - s.1.B + kn * (2 * π)) = s.1.B + ((kl - kn : ℤ) : ℝ) * (2 * π) := by push_cast; ring
    rw [e1, e2]
    exact h

example : ∃ s : Elem × Cyl × Rates, s = (step ⟨1, 0, 0, 0, 0⟩ (cylindrical 1 0 0 0 1 0))^[101] (⟨(cylindrical 1 0 0 0 1 0).r, 0, 0, 0, 0, 0⟩,
    ⟨0, 0, 0, 0, 0, 0⟩, rates ⟨1, 0, 0, 0, 0⟩ (cylindrical 1 0 0 0 1 0).r 0 0) ∧ step ⟨1, 0, 0, 0, 0⟩ (cylindrical 1 0 0 0 1 0) s = s ∧ 0 < s.1.a ∧
    (rates ⟨1, 0, 0, 0, 0⟩ s.1.a s.1.e s.1.i).n ≠ 0 ∧ (rates ⟨1, 0, 0, 0, 0⟩ s.1.a s.1.e s.1.i).kappa ≠ 0 ∧
    (rates ⟨1, 0, 0, 0, 0⟩ s.1.a s.1.e s.1.i).nu ≠ 0 := by
  have hc : cylindrical 1 0 0 0 1 0 = ⟨1, 0, 0, 0, 1, 0⟩ := by
    have h : arctan 1 0 = 0 := Complex.arg_one
    simp [cylindrical, h]
  obtain ⟨h1, h2⟩ := circular_steps (p := ⟨1, 0, 0, 0, 0⟩) (o := ⟨1, 0, 0, 0, 1, 0⟩) one_pos rfl rfl rfl (by simp [meanMotion])
  rw [hc]
  refine ⟨_, rfl, ?_⟩
  rw [h2 100]
  refine ⟨h1 _, one_pos, ?_, ?_, ?_⟩ <;> simp [rates, meanMotion, periRate, nodeRate]

/-- Without oblateness, a circular orbit in the plane of the equator gives its radius, its longitude, and 0 for eccentricity and inclination. -/
theorem C112_kepler {GM r th : ℝ} (hG : 0 < GM) (hr : 0 < r) (h0 : 0 ≤ th) (h1 : th ≤ 180) :
    posiGeo ⟨GM, 0, 0, 0, 0⟩ (r * cos (th * (π / 180))) (r * sin (th * (π / 180))) 0 (-√(GM / r) * sin (th * (π / 180)))
      (√(GM / r) * cos (th * (π / 180))) 0 = [r, 0, 0, th, th, th] := by
  have hp := pi_pos
  have f0 : 0 ≤ th * (π / 180) := by positivity
  have f1 : th * (π / 180) ≤ π := by
    rw [← le_div_iff₀ (by positivity)]
    have : π / (π / 180) = 180 := by field_simp
    rwa [this]
  have hL : arctan (r * cos (th * (π / 180))) (r * sin (th * (π / 180))) = th * (π / 180) := by
    have e : (⟨r * cos (th * (π / 180)), r * sin (th * (π / 180))⟩ : ℂ) =
        (r : ℂ) * (Complex.cos ((th * (π / 180) : ℝ) : ℂ) + Complex.sin ((th * (π / 180) : ℝ) : ℂ) * Complex.I) := by
      apply Complex.ext <;>
      simp only [← Complex.ofReal_cos, ← Complex.ofReal_sin, Complex.mul_re, Complex.add_re, Complex.ofReal_re, Complex.ofReal_im,
        Complex.mul_im, Complex.I_re, Complex.I_im, Complex.add_im] <;> ring
    rw [arctan, e, Complex.arg_mul_cos_add_sin_mul_I hr ⟨by linarith, f1⟩]
  have hc := cos_sq_add_sin_sq (th * (π / 180))
  have hR : √((r * cos (th * (π / 180))) ^ 2 + (r * sin (th * (π / 180))) ^ 2) = r := by
    rw [mul_pow, mul_pow, ← mul_add, hc, mul_one, sqrt_sq hr.le]
  have hcyl : cylindrical (r * cos (th * (π / 180))) (r * sin (th * (π / 180))) 0 (-√(GM / r) * sin (th * (π / 180)))
      (√(GM / r) * cos (th * (π / 180))) 0 = ⟨r, th * (π / 180), 0, 0, √(GM / r) / r, 0⟩ := by
    simp only [cylindrical, hL, hR]
    congr 1
    · ring
    · congr 1
      linear_combination √(GM / r) * hc
  have hm : √(GM / r) / r = meanMotion ⟨GM, 0, 0, 0, 0⟩ r 0 0 := by
    have : GM / r ^ 3 = GM / r / r ^ 2 := by field_simp
    simp only [meanMotion, this, sqrt_div (div_nonneg hG.le hr.le), sqrt_sq hr.le]
    ring
  have horb := C112_circular (p := ⟨GM, 0, 0, 0, 0⟩) (o := ⟨r, th * (π / 180), 0, 0, √(GM / r) / r, 0⟩) hr rfl rfl rfl hm
  have hq : 0 < √(GM / r) := sqrt_pos.mpr (by positivity)
  have hz : r * cos (th * (π / 180)) * (√(GM / r) * cos (th * (π / 180))) - r * sin (th * (π / 180)) * (-√(GM / r) * sin (th * (π / 180))) =
      r * √(GM / r) := by linear_combination r * √(GM / r) * hc
  have hax : axisFromMomentum ⟨GM, 0, 0, 0, 0⟩ r (r * √(GM / r)) = r := by
    have h := C112_axis (GM := GM) (r := r) (hz := r * √(GM / r)) hG hr (by positivity)
    have e : (r * √(GM / r)) ^ 2 / GM = r := by
      rw [mul_pow, sq_sqrt (by positivity)]
      field_simp
    rw [e, div_self hr.ne', one_rpow, div_eq_one_iff_eq hr.ne'] at h
    exact h
  have hang : outAngle (th * (π / 180)) = th := by
    have e : th * (π / 180) * (180 / π) + 360 = th + 360 := by field_simp
    have fl : ⌊(th + 360) / 360⌋ = 1 := Int.floor_eq_iff.mpr ⟨by push_cast; linarith, by push_cast; linarith⟩
    have e2 : fmod (th + 360) 360 = th := by rw [fmod, fl]; push_cast; ring
    rw [outAngle, e, e2, amodulo, if_neg (not_lt.mpr h0), fmod_of_range h0 (by linarith)]
  simp only [posiGeo, hcyl, horb, hz, hax, sub_zero, hang, mul_zero, add_zero, mul_one, zero_mul]

example : (0 : ℝ) < 37931207.7 ∧ (0 : ℝ) < 1221870 ∧ (0 : ℝ) ≤ 90 ∧ (90 : ℝ) ≤ 180 := by norm_num

/-- `amodulo` gives the remainder for arguments that are not negative. -/
theorem C112_modulo_partial {x y : ℝ} (hx : 0 ≤ x) (hy : 0 < y) : 0 ≤ amodulo x y ∧ amodulo x y < y := by
  rw [amodulo, if_neg (not_lt.mpr hx)]
  exact fmod_range x hy

example : amodulo 370 360 = 10 := by
  have : ⌊(370 : ℝ) / 360⌋ = 1 := Int.floor_eq_iff.mpr ⟨by norm_num, by norm_num⟩
  rw [amodulo, if_neg (by norm_num), fmod, this]
  norm_num

/-- For negative arguments it is one turn too great. -/
theorem C112_modulo_false {x y : ℝ} (hx : x < 0) (hy : 0 < y) : y ≤ amodulo x y := by
  rw [amodulo, if_pos hx]
  linarith [(fmod_range x hy).1]

end Verif.Orb
