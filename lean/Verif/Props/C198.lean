import Verif.Props.C112

/-!
# From elements to position and velocity (C198, C199)

The state is that of Renner and Sicardy in `Verif/Spec/Orbit.lean`.
-/
namespace Verif.Orb
open Real Spec

/-- The equations of `geo_posi` are those of the body. -/
theorem geoCyl_state {w : Rates} (l : Angles) (hn : w.n ≠ 0) (hk : w.kappa ≠ 0) (hv : w.nu ≠ 0) :
    State l.a l.e l.i l.lam (l.lam - l.tom) (l.lam - l.gom) w.n w.kappa w.nu w.eta2 w.chi2 (geoCyl w l).r (geoCyl w l).L (geoCyl w l).z
      (geoCyl w l).vr (geoCyl w l).vL (geoCyl w l).vz := by
  have e1 : 2 * l.lam - l.tom - l.gom = l.lam - l.tom + (l.lam - l.gom) := by ring
  have e2 : l.tom - l.gom = l.lam - l.gom - (l.lam - l.tom) := by ring
  refine (state_iff (l := ⟨l.a, l.e, l.i, l.lam, l.lam - l.tom, l.lam - l.gom⟩) (o := geoCyl w l) hn hk hv).mpr ⟨?_, ?_, ?_, ?_, ?_, ?_⟩
  · simp only [geoCyl, corrections, div_eq_mul_inv, mul_inv]; ring
  · have : w.kappa * w.kappa⁻¹ = 1 := mul_inv_cancel₀ hk
    simp only [geoCyl, corrections, div_eq_mul_inv, mul_inv]
    linear_combination (-(l.a * l.i ^ 2 * w.chi2 * w.nu * (2⁻¹ * w.alph2⁻¹) * sin (2 * (l.lam - l.gom)))) * this
  · simp only [geoCyl, corrections, div_eq_mul_inv, mul_inv]; ring
  · simp only [geoCyl, corrections, div_eq_mul_inv, mul_inv, inv_inv]; ring
  · simp only [geoCyl, corrections, e1, e2, div_eq_mul_inv, mul_inv]; ring
  · have : w.nu * w.nu⁻¹ = 1 := mul_inv_cancel₀ hv
    simp only [geoCyl, corrections, e1, e2, div_eq_mul_inv, mul_inv]
    linear_combination (l.a * l.i * l.e * (w.chi2 * (w.kappa + w.nu) * (2⁻¹ * w.kappa⁻¹ * w.alpha1⁻¹) * cos (l.lam - l.tom + (l.lam - l.gom)) +
      3 * 2⁻¹ * (w.chi2 * (w.kappa - w.nu)) * (w.kappa⁻¹ * w.alpha2⁻¹) * cos (l.lam - l.gom - (l.lam - l.tom)))) * this

/-- A number of whole turns that brings an angle between `-π` and `π`. -/
theorem turn_exists (x : ℝ) : ∃ k : ℤ, x + k * (2 * π) ∈ Set.Ioc (-π) π := by
  have hp : (0 : ℝ) < 2 * π := by positivity
  refine ⟨-toIocDiv hp (-π) x, ?_⟩
  have := toIocMod_mem_Ioc hp (-π) x
  rw [toIocMod] at this
  rw [show (-π : ℝ) + 2 * π = π by ring] at this
  simpa [sub_eq_add_neg, zsmul_eq_mul, neg_mul] using this

/-- The equations give the state of a body with the elements; the conversion in the other direction stays at those elements, up to whole turns of
the angles from pericentre and node. -/
theorem C198_equations (p : Planet) (l : Angles) (hn : (rates p l.a l.e l.i).n ≠ 0) (hk : (rates p l.a l.e l.i).kappa ≠ 0)
    (hv : (rates p l.a l.e l.i).nu ≠ 0) :
    (∃ r L z vr vL vz, State l.a l.e l.i l.lam (l.lam - l.tom) (l.lam - l.gom) (rates p l.a l.e l.i).n (rates p l.a l.e l.i).kappa
      (rates p l.a l.e l.i).nu (rates p l.a l.e l.i).eta2 (rates p l.a l.e l.i).chi2 r L z vr vL vz ∧
      geoCart (geoCyl (rates p l.a l.e l.i) l) =
        [r * cos L, r * sin L, z, vr * cos L - r * vL * sin L, vr * sin L + r * vL * cos L, vz]) ∧
    (0 < l.a → 0 < l.e → 0 < l.i → l.e < 1 → ∃ (A B : ℝ) (j k : ℤ), A = l.lam - l.tom + j * (2 * π) ∧ B = l.lam - l.gom + k * (2 * π) ∧
      A ∈ Set.Ioc (-π) π ∧ B ∈ Set.Ioc (-π) π ∧ ∃ c w, step p (geoCyl (rates p l.a l.e l.i) l) (⟨l.a, l.e, l.i, l.lam, A, B⟩, c, w) =
        (⟨l.a, l.e, l.i, l.lam, A, B⟩, c, w) ∧ w = rates p l.a l.e l.i) := by
  have hs := geoCyl_state l hn hk hv
  refine ⟨⟨_, _, _, _, _, _, hs, rfl⟩, fun ha he hi h1 => ?_⟩
  obtain ⟨j, hj⟩ := turn_exists (l.lam - l.tom)
  obtain ⟨k, hk'⟩ := turn_exists (l.lam - l.gom)
  have ht := hs.turn 0 j k
  simp only [Int.cast_zero, zero_mul, add_zero] at ht
  refine ⟨_, _, j, k, rfl, rfl, hj, hk', _, _, C112_inverse (l := ⟨l.a, l.e, l.i, l.lam, _, _⟩) rfl ha he hi hj hk' ?_ hn hk hv ht, rfl⟩
  have := cos_le_one (l.lam - l.tom + j * (2 * π))
  exact ne_of_lt (by nlinarith)

theorem kepler_one {l : Angles} (ha : l.a = 1) : rates ⟨1, 0, 0, 0, 0⟩ l.a l.e l.i = ⟨1, 1, 1, 1, 1⟩ := by
  rw [kepler_rates, ha]; norm_num

/-- An inclined ellipse with pericentre and node apart. -/
example : ∃ A B c w, step ⟨1, 0, 0, 0, 0⟩ (geoCyl ⟨1, 1, 1, 1, 1⟩ ⟨1, 1 / 2, 1 / 3, 4, 2, 1⟩) (⟨1, 1 / 2, 1 / 3, 1, A, B⟩, c, w) =
    (⟨1, 1 / 2, 1 / 3, 1, A, B⟩, c, w) := by
  have e := kepler_one (l := ⟨1, 1 / 2, 1 / 3, 4, 2, 1⟩) rfl
  obtain ⟨A, B, j, k, -, -, -, -, c, w, h, -⟩ := (C198_equations ⟨1, 0, 0, 0, 0⟩ ⟨1, 1 / 2, 1 / 3, 4, 2, 1⟩ (by rw [e]; norm_num) (by rw [e]; norm_num)
    (by rw [e]; norm_num)).2 (by norm_num) (by norm_num) (by norm_num) (by norm_num)
  rw [e] at h
  exact ⟨A, B, c, w, h⟩

/-- What the result of a conversion should be: position and velocity of a body with the elements, with angles in degrees, where the rates are those
of the planet. -/
def Spec.Vector (n kap nu eta2 chi2 a e i gom tom lam : ℝ) (v : List ℝ) : Prop :=
  ∃ r L z vr vL vz, State a e (i * (π / 180)) (lam * (π / 180)) ((lam - tom) * (π / 180)) ((lam - gom) * (π / 180)) n kap nu eta2 chi2 r L z vr vL vz ∧
    v = [r * cos L, r * sin L, z, vr * cos L - r * vL * sin L, vr * sin L + r * vL * cos L, vz]

/-- With `np.pi`, a flat list and `np.cos` the result would be all but the last entry of the vector.  Missing for `geo_posi`: it does not return, and
the vertical velocity. -/
theorem C199_vector_partial (p : Planet) (a e i gom tom lam : ℝ) {w : Rates} (hw : w = rates p a e (i * (π / 180))) (hn : w.n ≠ 0) (hk : w.kappa ≠ 0)
    (hv : w.nu ≠ 0) : ∃ v, Spec.Vector w.n w.kappa w.nu w.eta2 w.chi2 a e i gom tom lam v ∧
      geoPosiWith true true true p a e i gom tom lam = .ok v.dropLast := by
  have hs := geoCyl_state (w := w) (toAngles a e i gom tom lam) hn hk hv
  refine ⟨geoCart (geoCyl w (toAngles a e i gom tom lam)), ⟨_, _, _, _, _, _, ?_, rfl⟩, ?_⟩
  · simpa only [toAngles, sub_mul] using hs
  · rw [hw]; rfl

/-- `geo_posi` returns for no elements; with the names and the list repaired the vector would have 5 entries, so it would be that of no body. -/
theorem C199_vector_false (p : Planet) (a e i gom tom lam : ℝ) : (∀ v, geoPosi p a e i gom tom lam ≠ .ok v) ∧
    ∀ v, geoPosiWith true true true p a e i gom tom lam = .ok v → ∀ n kap nu eta2 chi2, ¬ Spec.Vector n kap nu eta2 chi2 a e i gom tom lam v := by
  refine ⟨fun v h => (nomatch h), ?_⟩
  rintro v h n kap nu eta2 chi2 ⟨r, L, z, vr, vL, vz, -, e⟩
  have h5 : v.length = 5 := by cases h; rfl
  rw [e] at h5
  simp at h5

/-- A body that has a vector. -/
example : ∃ v, Spec.Vector 1 1 1 1 1 1 (1 / 2) (1 / 3) 4 2 1 v ∧ geoPosiWith true true true ⟨1, 0, 0, 0, 0⟩ 1 (1 / 2) (1 / 3) 4 2 1 = .ok v.dropLast :=
  C199_vector_partial (w := ⟨1, 1, 1, 1, 1⟩) _ _ _ _ _ _ _ (by rw [kepler_rates]; norm_num) (by norm_num) (by norm_num) (by norm_num)

end Verif.Orb
