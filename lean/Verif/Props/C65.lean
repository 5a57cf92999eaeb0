import Verif.Props.C21
import Mathlib.Analysis.Real.Pi.Irrational

/-!
# C65: the phases of the elliptical and of the perturbed Newton method

Exact arithmetic; the special functions of libtmpl are arbitrary.
-/
namespace Verif

/-! ### Specification -/

/-- Radius at longitude `φ` of the ellipse with eccentricity `e` and periapse `ϖ` through the point `(r₀, φ₀)`; all
angles in radians. -/
noncomputable def Spec.ellipseRadius (e ϖ r₀ φ₀ φ : ℝ) : ℝ :=
  r₀ * (1 + e * Real.cos (φ₀ - ϖ)) / (1 + e * Real.cos (φ - ϖ))

/-- The same with the longitudes in degrees. -/
noncomputable def Spec.ellipseRadiusDeg (e ϖ r₀ φ₀ φ : ℝ) : ℝ :=
  Spec.ellipseRadius e ϖ r₀ (φ₀ * (Real.pi / 180)) (φ * (Real.pi / 180))

/-- The perturbation: `k D (p₀ + p₁ x + p₂ x² + p₃ x³ + p₄ x⁴)` with `x = (r₀ - r) / D`. -/
noncomputable def Spec.perturbation (p : List ℝ) (k D r₀ r : ℝ) : ℝ :=
  k * D * ∑ j ∈ Finset.range 5, val p j * ((r₀ - r) / D) ^ j

/-- The normalised sum over a window of `2 q + 1` samples with weights `w` and phases `psi`. -/
noncomputable def Spec.normalisedSum (w : List ℝ) (psi : Nat → ℝ) (l : List ℂ) (c q : Nat) : ℂ :=
  (1 + Complex.I) / √2 / ‖∑ i ∈ Finset.Icc (c - q) (c + q), val w (i + q - c) * Complex.exp (-psi i * Complex.I)‖ *
    ∑ i ∈ Finset.Icc (c - q) (c + q), val w (i + q - c) * Complex.exp (-psi i * Complex.I) * sample l i

/-- The columns of the object. -/
structure Spec.Columns (t : Tau ℝ ℂ) (A : Nat) (rho phi k B D rx ry rz : List ℝ) : Prop where
  hrho : t.arr .rho = some rho
  hphi : t.arr .phi = some phi
  hk : t.arr .k = some k
  hB : t.arr .B = some B
  hD : t.arr .D = some D
  hrx : t.arr .rx = some rx
  hry : t.arr .ry = some ry
  hrz : t.arr .rz = some rz
  len : ∀ l ∈ [rho, phi, k, B, D, rx, ry, rz], l.length = A

open Spec

theorem rdP_val {l : List ℝ} {p : Option (List ℝ)} {i : Nat} (h : p = some l) (hi : i < l.length) :
    rdP p i = .ok (val l i) := by rw [h, rdP_some, rd_val hi]

theorem ellPsi_eq {N : Num ℝ ℂ} (hN : N.IsExact) (hcos : ∀ a, N.cos a = Real.cos a) {t : Tau ℝ ℂ} {A : Nat}
    {rho phi k B D rx ry rz : List ℝ} (h : Columns t A rho phi k B D rx ry rz) {c i : Nat} (hc : c < A) (hi : i < A)
    (he : t.ecc ^ 2 ≠ 1) {φ : ℝ} (hφ : φ = N.ellPhi (val k c) (val rho c) (val rho i) (val phi i) (val phi i) (val B c)
      t.ecc t.peri (val rx c) (val ry c) (val rz c)) :
    ellPsi N t c i = .ok (N.idealPsiDeg (val k c) (ellipseRadius t.ecc t.peri (val rho c) (val phi c) φ) (val rho i) φ
      (val phi i) (val B c) (N.obsDist (val rho i) φ (val rx c) (val ry c) (val rz c))) := by
  have hl : ∀ l ∈ [rho, phi, k, B, D, rx, ry, rz], l.length = A := h.len
  simp only [List.mem_cons, List.not_mem_nil, or_false, forall_eq_or_imp, forall_eq] at hl
  obtain ⟨l1, l2, l3, l4, l5, l6, l7, l8⟩ := hl
  unfold ellPsi
  rw [rdP_val h.hphi (by omega : c < phi.length), Res.ok_bind, rdP_val h.hrho (by omega : c < rho.length), Res.ok_bind,
    rdP_val h.hk (by omega : c < k.length), Res.ok_bind, rdP_val h.hrho (by omega : i < rho.length), Res.ok_bind,
    rdP_val h.hphi (by omega : i < phi.length), Res.ok_bind, rdP_val h.hB (by omega : c < B.length), Res.ok_bind,
    rdP_val h.hrx (by omega : c < rx.length), Res.ok_bind, rdP_val h.hry (by omega : c < ry.length), Res.ok_bind,
    rdP_val h.hrz (by omega : c < rz.length), Res.ok_bind, ← hφ]
  simp only [hN.sub, hN.lit, hN.mul, hN.add, hN.div, hcos]
  congr 2
  unfold ellipseRadius
  have h1 : (1 : ℝ) - t.ecc * t.ecc ≠ 0 := by
    intro h; apply he; rw [sq]; linarith
  push_cast
  rw [div_mul_cancel₀ _ h1]

/-- **C65** (partial) The elliptical Newton method is the normalised sum of the phases for the radius on the ellipse, if the
numbers in the column of longitudes and the stationary longitude are taken as radians.
Missing: they are degrees, see `C65_elliptical_false`. -/
theorem C65_elliptical_partial {N : Num ℝ ℂ} (hN : N.IsExact) (hcos : ∀ a, N.cos a = Real.cos a) {t : Tau ℝ ℂ} {A : Nat}
    {rho phi k B D rx ry rz : List ℝ} (h : Columns t A rho phi k B D rx ry rz) (he : t.ecc ^ 2 ≠ 1)
    {l : List ℂ} (hl : t.carr .tIn = some l) {w : List ℝ} {q c : Nat} (hw : 2 * q + 1 ≤ w.length) (h1 : q ≤ c)
    (h2 : c + q < l.length) (h3 : c + q < A)
    (φ : Nat → ℝ) (hφ : ∀ i, φ i = N.ellPhi (val k c) (val rho c) (val rho i) (val phi i) (val phi i) (val B c)
      t.ecc t.peri (val rx c) (val ry c) (val rz c)) :
    elliptical N t w (2 * q + 1) c = .ok (normalisedSum w (fun i => N.idealPsiDeg (val k c)
      (ellipseRadius t.ecc t.peri (val rho c) (val phi c) (φ i)) (val rho i) (φ i) (val phi i) (val B c)
      (N.obsDist (val rho i) (φ i) (val rx c) (val ry c) (val rz c))) l c q) :=
  elliptical_eq hN hl (fun i _ hi => ellPsi_eq hN hcos h (by omega) (by omega) he (hφ i)) hw h1 h2

/-- **C65** Without eccentricity the radius is that of the centre, whatever periapse and units. -/
theorem C65_circular (ϖ r₀ φ₀ φ : ℝ) :
    ellipseRadius 0 ϖ r₀ φ₀ φ = r₀ ∧ ellipseRadiusDeg 0 ϖ r₀ φ₀ φ = r₀ := by
  simp [ellipseRadiusDeg, ellipseRadius]

/-- **C65** The radius of the specification is that of an ellipse: at the longitude of the centre it is the radius of the
centre, and `r (1 + e cos(φ - ϖ))` does not depend on the longitude. -/
theorem C65_ellipse {e : ℝ} (he : |e| < 1) (ϖ r₀ φ₀ : ℝ) :
    ellipseRadius e ϖ r₀ φ₀ φ₀ = r₀ ∧
    ∀ φ, ellipseRadius e ϖ r₀ φ₀ φ * (1 + e * Real.cos (φ - ϖ)) = r₀ * (1 + e * Real.cos (φ₀ - ϖ)) := by
  have h : ∀ x : ℝ, (1 + e * Real.cos x) ≠ 0 := by
    intro x hx
    have h1 : |e * Real.cos x| ≤ |e| := by
      rw [abs_mul]
      exact mul_le_of_le_one_right (abs_nonneg e) (Real.abs_cos_le_one x)
    have h2 : e * Real.cos x = -1 := by linarith
    rw [h2] at h1
    simp at h1
    linarith
  constructor
  · unfold ellipseRadius; rw [mul_div_assoc, div_self (h _), mul_one]
  · intro φ
    unfold ellipseRadius; rw [div_mul_cancel₀ _ (h _)]

theorem pertPsi_eq {N : Num ℝ ℂ} (hN : N.IsExact) {t : Tau ℝ ℂ} {A : Nat}
    {rho phi k B D rx ry rz : List ℝ} (h : Columns t A rho phi k B D rx ry rz) {c i : Nat} (hc : c < A) (hi : i < A)
    (hp : t.perturb.length = 5) :
    pertPsi N t c i = .ok (N.idealPsiDeg (val k c) (val rho c) (val rho i)
      (N.idealPhiDeg (val k c) (val rho c) (val rho i) (val phi i) (val phi i) (val B c) (val D c)) (val phi i) (val B c)
      (val D c) + perturbation t.perturb (val k c) (val D c) (val rho c) (val rho i)) := by
  have hl : ∀ l ∈ [rho, phi, k, B, D, rx, ry, rz], l.length = A := h.len
  simp only [List.mem_cons, List.not_mem_nil, or_false, forall_eq_or_imp, forall_eq] at hl
  obtain ⟨l1, l2, l3, l4, l5, l6, l7, l8⟩ := hl
  unfold pertPsi
  rw [rdP_val h.hrho (by omega : c < rho.length), Res.ok_bind, rdP_val h.hrho (by omega : i < rho.length), Res.ok_bind,
    rdP_val h.hD (by omega : c < D.length), Res.ok_bind,
    rdP_val h.hk (by omega : c < k.length), Res.ok_bind,
    rdP_val h.hphi (by omega : i < phi.length), Res.ok_bind, rdP_val h.hB (by omega : c < B.length), Res.ok_bind,
    rd_val (by omega), Res.ok_bind, rd_val (by omega), Res.ok_bind, rd_val (by omega), Res.ok_bind, rd_val (by omega),
    Res.ok_bind, rd_val (by omega), Res.ok_bind]
  simp only [hN.sub, hN.mul, hN.add, hN.div]
  congr 2
  unfold perturbation
  simp only [Finset.sum_range_succ, Finset.sum_range_zero]
  ring

/-- **C65** The perturbed Newton method is the normalised sum of the phases to which the quartic polynomial has been
added. -/
theorem C65_perturbed {N : Num ℝ ℂ} (hN : N.IsExact) {t : Tau ℝ ℂ} {A : Nat}
    {rho phi k B D rx ry rz : List ℝ} (h : Columns t A rho phi k B D rx ry rz) (hp : t.perturb.length = 5)
    {l : List ℂ} (hl : t.carr .tIn = some l) {w : List ℝ} {q c : Nat} (hw : 2 * q + 1 ≤ w.length) (h1 : q ≤ c)
    (h2 : c + q < l.length) (h3 : c + q < A) :
    perturbed N t w (2 * q + 1) c = .ok (normalisedSum w (fun i => N.idealPsiDeg (val k c) (val rho c) (val rho i)
      (N.idealPhiDeg (val k c) (val rho c) (val rho i) (val phi i) (val phi i) (val B c) (val D c)) (val phi i) (val B c)
      (val D c) + perturbation t.perturb (val k c) (val D c) (val rho c) (val rho i)) l c q) :=
  perturbed_eq hN hl (fun i _ hi => pertPsi_eq hN h (by omega) (by omega) hp) hw h1 h2

/-- **C65** Five zeros are no perturbation. -/
theorem C65_unperturbed (k D r₀ r : ℝ) : perturbation (List.replicate 5 0) k D r₀ r = 0 := by
  simp [perturbation, Finset.sum_range_succ, val, List.replicate]

/-! ### Examples and counterexample -/

/-- An arithmetic whose stationary longitude is 0 and whose phase is the radius. -/
noncomputable def radiusNum : Num ℝ ℂ := { realNum with
  ellPhi := fun _ _ _ _ _ _ _ _ _ _ _ => 0
  idealPsiDeg := fun _ r _ _ _ _ _ => r }

theorem radiusNum_exact : radiusNum.IsExact := by
  have h := realNum_exact
  exact ⟨h.lit, h.add, h.sub, h.mul, h.div, h.neg, h.rect, h.polar, h.cadd, h.cmul, h.crmul, h.conj, h.cabs,
    h.rcprSqrtTwo, h.sqrtTwo, h.re, h.im, h.caddr, h.cmid⟩

/-- Ten rows at longitude 360 degrees, eccentricity 1/2. -/
noncomputable def ellTau : Tau ℝ ℂ := { realTau with
  ecc := 1 / 2
  arr := fun f => some (List.replicate 10 (if f = .phi then 360 else 1)) }

theorem ellTau_columns : Columns ellTau 10 (List.replicate 10 1) (List.replicate 10 360) (List.replicate 10 1)
    (List.replicate 10 1) (List.replicate 10 1) (List.replicate 10 1) (List.replicate 10 1) (List.replicate 10 1) := by
  refine ⟨rfl, rfl, rfl, rfl, rfl, rfl, rfl, rfl, fun l hl => ?_⟩
  simp only [List.mem_cons, List.not_mem_nil, or_false] at hl
  rcases hl with rfl | rfl | rfl | rfl | rfl | rfl | rfl | rfl <;> simp

theorem cos_360 : Real.cos 360 ≠ 1 := by
  intro h
  obtain ⟨n, hn⟩ := (Real.cos_eq_one_iff 360).1 h
  have hn0 : (n : ℝ) ≠ 0 := by
    intro h0; rw [h0] at hn; norm_num at hn
  apply irrational_pi
  refine ⟨180 / n, ?_⟩
  push_cast
  field_simp
  linarith

/-- **C65** is false for the elliptical method: the cosine of the longitude *in degrees* is computed as if it were in
radians.  Witness: centre at longitude 360 degrees, stationary longitude 0 degrees (the same direction); the
radius is not that of the centre. -/
theorem C65_elliptical_false :
    ¬ ∀ (N : Num ℝ ℂ) (t : Tau ℝ ℂ) (A c i : Nat) (rho phi k B D rx ry rz : List ℝ) (φ : ℝ), N.IsExact →
      (∀ a, N.cos a = Real.cos a) → Columns t A rho phi k B D rx ry rz → c < A → i < A → |t.ecc| < 1 →
      φ = N.ellPhi (val k c) (val rho c) (val rho i) (val phi i) (val phi i) (val B c)
        t.ecc t.peri (val rx c) (val ry c) (val rz c) →
      ellPsi N t c i = .ok (N.idealPsiDeg (val k c) (ellipseRadiusDeg t.ecc t.peri (val rho c) (val phi c) φ) (val rho i) φ
        (val phi i) (val B c) (N.obsDist (val rho i) φ (val rx c) (val ry c) (val rz c))) := by
  intro hall
  have h1 := hall radiusNum ellTau 10 4 4 _ _ _ _ _ _ _ _ 0 radiusNum_exact (fun _ => rfl) ellTau_columns (by decide)
    (by decide) (by norm_num [ellTau, abs_of_pos]) rfl
  have h2 := ellPsi_eq radiusNum_exact (fun _ => rfl) ellTau_columns (c := 4) (i := 4) (by decide) (by decide)
    (by norm_num [ellTau]) (φ := 0) rfl
  rw [h1] at h2
  have h3 := Res.ok.inj h2
  have e : ∀ r : ℝ, radiusNum.idealPsiDeg (val (List.replicate 10 1) 4) r (val (List.replicate 10 1) 4) 0
    (val (List.replicate 10 360) 4) (val (List.replicate 10 1) 4) (radiusNum.obsDist (val (List.replicate 10 1) 4) 0
      (val (List.replicate 10 1) 4) (val (List.replicate 10 1) 4) (val (List.replicate 10 1) 4)) = r := fun _ => rfl
  rw [e, e] at h3
  have c1 : Real.cos (360 * (Real.pi / 180)) = 1 := by
    rw [show (360 : ℝ) * (Real.pi / 180) = 2 * Real.pi by ring, Real.cos_two_pi]
  simp [ellipseRadiusDeg, ellipseRadius, val, ellTau, realTau, c1] at h3
  apply cos_360
  field_simp at h3
  linarith

/-- Non-vacuity of `C65_elliptical_partial`: five samples around row 4, with an eccentricity. -/
example : ∃ z, elliptical radiusNum ellTau (List.replicate 5 1) 5 4 = .ok z :=
  ⟨_, C65_elliptical_partial radiusNum_exact (fun _ => rfl) ellTau_columns (by norm_num [ellTau])
    (l := List.replicate 10 Complex.I) rfl (w := List.replicate 5 1) (q := 2) (c := 4) (by simp) (by decide) (by simp)
    (by decide) (fun _ => 0) (fun _ => rfl)⟩

/-- Non-vacuity of `C65_perturbed`, with a perturbation. -/
example : ∃ z, perturbed radiusNum { ellTau with perturb := [1, 2, 3, 4, 5] } (List.replicate 5 1) 5 4 = .ok z :=
  ⟨_, C65_perturbed radiusNum_exact (t := { ellTau with perturb := [1, 2, 3, 4, 5] }) (A := 10)
    ⟨ellTau_columns.1, ellTau_columns.2, ellTau_columns.3, ellTau_columns.4, ellTau_columns.5, ellTau_columns.6,
      ellTau_columns.7, ellTau_columns.8, ellTau_columns.9⟩ rfl
    (l := List.replicate 10 Complex.I) rfl (w := List.replicate 5 1) (q := 2) (c := 4) (by simp) (by decide) (by simp)
    (by decide)⟩

/-- The polynomial of the example: `1 + 2 x + 3 x² + 4 x³ + 5 x⁴` at `x = 1`. -/
example : perturbation [1, 2, 3, 4, 5] 1 1 2 1 = 15 := by
  norm_num [perturbation, Finset.sum_range_succ, val]

end Verif
