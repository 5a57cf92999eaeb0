import Verif.Props.C21

/-!
# C23, C24: free space is preserved; forward and inverse kernels

In each theorem about C23 `S` is the sum of the weights that the method itself uses; it is
assumed not to vanish (otherwise the code divides by zero).
-/
namespace Verif
open Spec

theorem norm_one_add_I : ‖(1 + Complex.I : ℂ)‖ = √2 := by
  rw [Complex.norm_def, Complex.normSq_apply]; norm_num

theorem diag_norm {S : ℂ} (h : S ≠ 0) (z : ℂ) :
    ‖(1 + Complex.I) * (1 / (√2 * ‖S‖) : ℝ) * (S * z)‖ = ‖z‖ := by
  have hS : ‖S‖ ≠ 0 := norm_ne_zero_iff.2 h
  have h2 : √2 ≠ 0 := by simp
  rw [Complex.norm_mul, Complex.norm_mul, Complex.norm_mul, norm_one_add_I, Complex.norm_real, Real.norm_of_nonneg (by positivity)]
  field_simp

theorem windowSum_const {K : Nat → ℂ} {l : List ℂ} {c q : Nat} {z : ℂ}
    (hz : ∀ i, c - q ≤ i → i ≤ c + q → sample l i = z) :
    windowSum K l c q = (∑ i ∈ window c q, K i) * z := by
  rw [windowSum, Finset.sum_mul]
  refine Finset.sum_congr rfl fun i hi => ?_
  obtain ⟨a, b⟩ := Finset.mem_Icc.1 hi
  rw [hz i a b]

section
variable {N : Num ℝ ℂ} (hN : N.IsExact) {t : Tau ℝ ℂ} {l : List ℂ} (hl : t.carr .tIn = some l)
  {q c : Nat} {z : ℂ} (h1 : q ≤ c) (h2 : c + q < l.length)
  (hz : ∀ i, c - q ≤ i → i ≤ c + q → sample l i = z)
include hN hl h1 h2 hz

/-- **C23** Riemann sums. -/
theorem C23_riemann {w : List ℝ} (hw : 2 * q + 1 ≤ w.length) (hn : t.useNorm = true) {k : Nat → ℂ}
    (hk : ∀ i, c - q ≤ i → i ≤ c + q → kernel N t c i = .ok (k i))
    (hS : ∑ n ∈ Finset.range (2 * q), val w n * k (c - q + n) ≠ 0) :
    ∃ r, runXf N .riemann t [] w [] (2 * q + 1) c = .ok r ∧ ‖r‖ = ‖z‖ := by
  refine ⟨_, riemann_eq hN hl (fun i a b => hk i a (by omega)) (by omega) h1 (by omega), ?_⟩
  have e : ∑ n ∈ Finset.range (2 * q), val w n * k (c - q + n) * sample l (c - q + n) =
      (∑ n ∈ Finset.range (2 * q), val w n * k (c - q + n)) * z := by
    rw [Finset.sum_mul]
    exact Finset.sum_congr rfl fun n hn => by
      have := Finset.mem_range.1 hn
      rw [hz _ (by omega) (by omega)]
  rw [e, hn, if_pos rfl, Complex.norm_mul, Complex.norm_mul, Complex.norm_real, Real.norm_of_nonneg (by positivity)]
  have := norm_ne_zero_iff.2 hS
  field_simp

/-- **C23** The Filon quadratures that normalise; `S` is the integral of the window and
amplitude alone. -/
theorem C23_filon (hf : N.FilonLinear) (deg0 : Bool) {w : List ℝ} (hw : 2 * q + 1 ≤ w.length)
    (hn : t.useNorm = true) {pw : Nat → ℝ × ℝ × ℝ}
    (hp : ∀ n, n ≤ 2 * q → phaseWeight N t c (c - q + n) none = .ok (pw n))
    {s : Nat → ℝ} (hs : ∀ n, s n = (pw n).1 * val w n)
    (hS : ∑ n ∈ Finset.range (2 * q),
      (if deg0 then N.rFilon01 ((s n + s (n + 1)) / 2) (pw n).2.1 (pw (n + 1)).2.1 t.dx
       else N.rFilon11 (s n) (s (n + 1)) (pw n).2.1 (pw (n + 1)).2.1 t.dx) ≠ 0) :
    ∃ r, runXf N (if deg0 then .filon01 else .filon11) t [] w [] (2 * q + 1) c = .ok r ∧
      ‖r‖ = ‖z‖ := by
  have hrun : runXf N (if deg0 then .filon01 else .filon11) t [] w [] (2 * q + 1) c =
      filon1 N deg0 t w (2 * q + 1) c := by cases deg0 <;> rfl
  rw [hrun]
  refine ⟨_, filon1_eq hN hl deg0 hp hw h1 h2 (z := fun n => s n * z) (fun n hn => ?_)
    (fun n _ => hs n), ?_⟩
  · rw [scaled, hz _ (by omega) (by omega), hs]
  have e : (∑ n ∈ Finset.range (2 * q),
      (if deg0 then N.cFilon01 ((s n * z + s (n + 1) * z) / 2) (pw n).2.1 (pw (n + 1)).2.1 t.dx
       else N.cFilon11 (s n * z) (s (n + 1) * z) (pw n).2.1 (pw (n + 1)).2.1 t.dx)) =
      (∑ n ∈ Finset.range (2 * q),
      (if deg0 then N.rFilon01 ((s n + s (n + 1)) / 2) (pw n).2.1 (pw (n + 1)).2.1 t.dx
       else N.rFilon11 (s n) (s (n + 1)) (pw n).2.1 (pw (n + 1)).2.1 t.dx)) * z := by
    rw [Finset.sum_mul]
    refine Finset.sum_congr rfl fun n _ => ?_
    cases deg0
    · simp only [Bool.false_eq_true, if_false]
      rw [hf.f11, hf.r11 (s n) (s (n + 1))]; ring
    · simp only [if_true]
      rw [hf.f01, hf.r01 ((s n + s (n + 1)) / 2)]; push_cast; ring
  rw [e, hn, if_pos rfl, Complex.norm_mul, Complex.norm_mul, Complex.norm_real, Real.norm_of_nonneg (by positivity)]
  have := norm_ne_zero_iff.2 hS
  field_simp

/-- **C23** Elliptical and perturbed Newton (always normalised). -/
theorem C23_corrected {w : List ℝ} (hw : 2 * q + 1 ≤ w.length) {f : Xf} {psi : Nat → Res ℝ}
    (hf : (f = .elliptical ∧ psi = ellPsi N t c) ∨ (f = .perturbed ∧ psi = pertPsi N t c))
    {p : Nat → ℝ} (hp : ∀ i, c - q ≤ i → i ≤ c + q → psi i = .ok (p i))
    (hS : ∑ i ∈ window c q, val w (i + q - c) * Complex.exp (-p i * Complex.I) ≠ 0) :
    ∃ r, runXf N f t [] w [] (2 * q + 1) c = .ok r ∧ ‖r‖ = ‖z‖ := by
  have key : ‖(1 + Complex.I) / √2 /
      ‖∑ i ∈ window c q, val w (i + q - c) * Complex.exp (-p i * Complex.I)‖ *
      windowSum (fun i => val w (i + q - c) * Complex.exp (-p i * Complex.I)) l c q‖ = ‖z‖ := by
    rw [windowSum_const hz, ← diag_norm hS z]
    congr 1
    push_cast
    ring
  rcases hf with ⟨rfl, rfl⟩ | ⟨rfl, rfl⟩
  · exact ⟨_, elliptical_eq hN hl hp hw h1 h2, key⟩
  · exact ⟨_, perturbed_eq hN hl hp hw h1 h2, key⟩

/-- **C23** The Fresnel transform. -/
theorem C23_fresnel {x w : List ℝ} (hx : q ≤ x.length) (hw : q ≤ w.length) (hn : t.useNorm = true)
    {F : ℝ} (hF : rdP (t.arr .F) c = .ok F) {φ : Nat → ℝ}
    (hφ : ∀ m, m < q → φ m = (if t.useFwd then -1 else 1) * val x m / F ^ 2)
    (hS : ∑ i ∈ window c q, halfKer w φ φ q c i ≠ 0) :
    ∃ r, runXf N .fresnel t x w [] q c = .ok r ∧ ‖r‖ = ‖z‖ := by
  refine ⟨_, fresnel_eq hN hl hF hx hw h1 h2 hφ, ?_⟩
  rw [windowSum_const hz, if_pos hn, diag_norm hS]

/-- **C23** The normalised Legendre transforms. -/
theorem C23_legendre {v : Leg} (hv : legNorm v = true) {x w co : List ℝ} (hx : q ≤ x.length)
    (hw : q ≤ w.length) {D k F : ℝ}
    (hD : rdP (t.arr .D) c = .ok D) (hk : rdP (t.arr .k) c = .ok k) (hF : rdP (t.arr .F) c = .ok F)
    {φl φr : Nat → ℝ}
    (hφ : ∀ m, m < q → legPsi N v co t.order (k * D) (val x m * (1 / D)) = .ok (φl m, φr m))
    (hS : ∑ i ∈ window c q, halfKer w φl φr q c i ≠ 0) :
    ∃ r, runXf N (.leg v) t x w co q c = .ok r ∧ ‖r‖ = ‖z‖ := by
  refine ⟨_, legendre_eq hN hl v hD hk hF hx hw h1 h2 hφ, ?_⟩
  rw [windowSum_const hz, if_pos hv, diag_norm hS]

/-- **C23** Newton8 (if `use_norm`) and Newton16 (always). -/
theorem C23_newton (b : Bool) {x w : List ℝ} (hx : q ≤ x.length)
    (hw : q ≤ w.length) (hn : b = true ∨ t.useNorm = true) {half : Nat} {pairs : List (ℝ × ℝ)}
    (hhalf : half = if b then 8 else 4)
    (hp : nodePairs N t c (q / half) 0 half = .ok pairs) {φl φr : Nat → ℝ}
    (hφ : ∀ m, m < q → interpPsi N (interpCoeffs N (if b then rows16 else rows8) pairs)
      (val x m * (1 / (2 * half * t.dx * (q / half : Nat)))) = (φl m, φr m))
    (hS : ∑ i ∈ window c q, halfKer w φl φr q c i ≠ 0) :
    ∃ r, runXf N (if b then .newton16 else .newton8) t x w [] q c = .ok r ∧ ‖r‖ = ‖z‖ := by
  have hrun : runXf N (if b then .newton16 else .newton8) t x w [] q c =
      newtonInterp N b t x w q c := by cases b <;> rfl
  rw [hrun]
  refine ⟨_, newtonInterp_eq hN hl b hhalf hp hx hw h1 h2 hφ, ?_⟩
  rw [windowSum_const hz, if_pos (by rcases hn with h | h <;> simp [h]), diag_norm hS]

end

/-- The example object with normalisation; its data is constant. -/
noncomputable def normTau : Tau ℝ ℂ := { realTau with useNorm := true }

theorem sample_replicate {n i : Nat} (z : ℂ) (h : i < n) : sample (List.replicate n z) i = z := by
  simp [sample, h]

/-- Free space `i` in a window of five samples: Riemann and Fresnel sums. -/
example : ∃ r, runXf realNum .riemann normTau [] [1, 1, 1, 1, 1] [] 5 4 = .ok r ∧ ‖r‖ = ‖Complex.I‖ :=
  C23_riemann realNum_exact (l := List.replicate 10 Complex.I) (q := 2) rfl (by omega) (by simp)
    (fun i _ h => sample_replicate _ (by omega)) (by simp) rfl (k := fun _ => 1)
    (fun i _ h => by
      have h9 : i < 10 := by omega
      simp [kernel, kernelGeo, normTau, realTau, realNum, rd, h9])
    (by simp [val, Finset.sum_range_succ]; norm_num)

example : ∃ r, runXf realNum .fresnel normTau [0, 0] [1, 1] [] 2 4 = .ok r ∧ ‖r‖ = ‖Complex.I‖ :=
  C23_fresnel realNum_exact (l := List.replicate 10 Complex.I) (q := 2) rfl (by omega) (by simp)
    (fun i _ h => sample_replicate _ (by omega)) (by simp) (by simp) rfl (F := 1)
    (by simp [normTau, realTau, rd]) (φ := fun _ => 0)
    (fun m hm => by
      obtain rfl | rfl : m = 0 ∨ m = 1 := by omega
      all_goals simp [val])
    (by
      rw [show window 4 2 = {2, 3, 4, 5, 6} from rfl]
      simp [halfKer, val]; norm_num)

/-- The object with the opposite transform direction. -/
def withFwd {R C : Type} (t : Tau R C) (b : Bool) : Tau R C := { t with useFwd := b }

/-- **C24** The cylindrical kernel (Riemann sums): the forward kernel from `o` to `c` is the
conjugate of the inverse kernel from `c` to `o` (the adjoint operator); this needs no
assumption on the arithmetic except that conjugation is an involution. -/
theorem C24_kernel {R C : Type} (N : Num R C) (hc : ∀ z, N.conj (N.conj z) = z) (t : Tau R C)
    (c o : Nat) (k : C) :
    kernel N (withFwd t true) c o = .ok k ↔ kernel N (withFwd t false) o c = .ok (N.conj k) := by
  simp only [kernel, kernelGeo, withFwd, if_true, Bool.false_eq_true, if_false, Res.bind_eq_ok]
  constructor
  · rintro ⟨g, ⟨a1, h1, a2, h2, a3, h3, a4, h4, a5, h5, a6, h6, a7, h7, e⟩, hk⟩
    exact ⟨g, ⟨a1, h1, a2, h2, a3, h3, a4, h4, a5, h5, a6, h6, a7, h7, e⟩, by cases hk; rfl⟩
  · rintro ⟨g, ⟨a1, h1, a2, h2, a3, h3, a4, h4, a5, h5, a6, h6, a7, h7, e⟩, hk⟩
    refine ⟨g, ⟨a1, h1, a2, h2, a3, h3, a4, h4, a5, h5, a6, h6, a7, h7, e⟩, ?_⟩
    rw [Res.ok.injEq] at hk
    rw [← hc k, ← hk, hc]

/-- **C24** Amplitude and phase (Filon quadratures, Newton4): same weight, opposite phase,
with centre and sample exchanged. -/
theorem C24_phase {R C : Type} (N : Num R C) (hn : ∀ x, N.neg (N.neg x) = x) (t : Tau R C)
    (c o : Nat) (w p φ : R) :
    phaseWeight N (withFwd t true) c o none = .ok (w, p, φ) ↔
      phaseWeight N (withFwd t false) o c none = .ok (w, N.neg p, φ) := by
  simp only [phaseWeight, kernelGeo, withFwd, if_true, Bool.false_eq_true, if_false, Res.bind_eq_ok]
  constructor
  · rintro ⟨g, ⟨a1, h1, a2, h2, a3, h3, a4, h4, a5, h5, a6, h6, a7, h7, e⟩, hk⟩
    exact ⟨g, ⟨a1, h1, a2, h2, a3, h3, a4, h4, a5, h5, a6, h6, a7, h7, e⟩, by cases hk; rfl⟩
  · rintro ⟨g, ⟨a1, h1, a2, h2, a3, h3, a4, h4, a5, h5, a6, h6, a7, h7, e⟩, hk⟩
    refine ⟨g, ⟨a1, h1, a2, h2, a3, h3, a4, h4, a5, h5, a6, h6, a7, h7, e⟩, ?_⟩
    simp only [Res.ok.injEq, Prod.mk.injEq] at hk ⊢
    exact ⟨hk.1, by rw [← hn p, ← hk.2.1, hn], hk.2.2⟩

/-- Two directions of the same real data. -/
def RealData (l : List ℂ) : Prop := ∀ i, (sample l i).im = 0

theorem conj_halfKer (w : List ℝ) (φl φr : Nat → ℝ) (n c i : Nat) :
    starRingEnd ℂ (halfKer w φl φr n c i) = halfKer w (fun m => -φl m) (fun m => -φr m) n c i := by
  unfold halfKer
  split_ifs
  · simp
  · rw [map_mul, Complex.conj_ofReal, ← Complex.exp_conj]; simp
  · rw [map_mul, Complex.conj_ofReal, ← Complex.exp_conj]; simp

theorem conj_windowSum {K : Nat → ℂ} {l : List ℂ} (hr : RealData l) (c q : Nat) :
    starRingEnd ℂ (windowSum K l c q) = windowSum (fun i => starRingEnd ℂ (K i)) l c q := by
  rw [windowSum, map_sum, windowSum]
  refine Finset.sum_congr rfl fun i _ => ?_
  rw [map_mul, Complex.conj_eq_iff_im.2 (hr i)]

/-- **C24** Fresnel transform: for real data the window sums of the two directions are
conjugates of each other, with the same scale `s`. -/
theorem C24_fresnel {N : Num ℝ ℂ} (hN : N.IsExact) {t : Tau ℝ ℂ} {l : List ℂ}
    (hl : t.carr .tIn = some l) (hr : RealData l) {x w : List ℝ} {q c : Nat} {F : ℝ}
    (hF : rdP (t.arr .F) c = .ok F)
    (hx : q ≤ x.length) (hw : q ≤ w.length) (h1 : q ≤ c) (h2 : c + q < l.length) :
    ∃ (s : ℝ) (W : ℂ), fresnel N (withFwd t false) x w q c = .ok ((1 + Complex.I) * s * W) ∧
      fresnel N (withFwd t true) x w q c = .ok ((1 + Complex.I) * s * starRingEnd ℂ W) := by
  refine ⟨_, _, fresnel_eq hN (t := withFwd t false) hl hF hx hw h1 h2
    (φ := fun m => val x m / F ^ 2) (fun m _ => by simp [withFwd]), ?_⟩
  rw [fresnel_eq hN (t := withFwd t true) hl hF hx hw h1 h2 (φ := fun m => -(val x m / F ^ 2))
    (fun m _ => by simp [withFwd, neg_div])]
  rw [conj_windowSum hr]
  simp only [conj_halfKer]
  have e : ‖∑ i ∈ window c q, halfKer w (fun m => -(val x m / F ^ 2)) (fun m => -(val x m / F ^ 2)) q c i‖ =
      ‖∑ i ∈ window c q, halfKer w (fun m => val x m / F ^ 2) (fun m => val x m / F ^ 2) q c i‖ := by
    rw [← Complex.norm_conj, map_sum]
    congr 1
    exact Finset.sum_congr rfl fun i _ => by rw [conj_halfKer]; simp
  rw [e]
  rfl

/-- **C24** Legendre transforms: negating the wavenumber (what the driver does for forward
modelling) negates the phases, so the kernels are conjugates of each other. -/
theorem C24_legendre {N : Num ℝ ℂ} (hN : N.IsExact) (v : Leg) {co : List ℝ} {order : Nat}
    {kD x : ℝ} {a b : ℝ} (h : legPsi N v co order kD x = .ok (a, b)) :
    legPsi N v co order (-kD) x = .ok (-a, -b) := by
  cases v
  all_goals
    simp only [legPsi, legOddPsi, legEvenPsi, Res.bind_eq_ok, hN.mul, hN.add, hN.sub] at h ⊢
  · obtain ⟨s, hs, e⟩ := h
    exact ⟨s, hs, by simp only [Res.ok.injEq, Prod.mk.injEq] at e ⊢; constructor <;> [rw [← e.1]; rw [← e.2]] <;> ring⟩
  · obtain ⟨s, hs, c0, h0, e⟩ := h
    exact ⟨s, hs, c0, h0, by simp only [Res.ok.injEq, Prod.mk.injEq] at e ⊢; constructor <;> [rw [← e.1]; rw [← e.2]] <;> ring⟩
  · obtain ⟨s, hs, e⟩ := h
    exact ⟨s, hs, by simp only [Res.ok.injEq, Prod.mk.injEq] at e ⊢; constructor <;> [rw [← e.1]; rw [← e.2]] <;> ring⟩
  · obtain ⟨s, hs, c0, h0, e⟩ := h
    exact ⟨s, hs, c0, h0, by simp only [Res.ok.injEq, Prod.mk.injEq] at e ⊢; constructor <;> [rw [← e.1]; rw [← e.2]] <;> ring⟩

/-- **C24**/**C36** Newton8, Newton16, elliptical and perturbed Newton ignore `use_fwd`:
forward modelling with them repeats the inverse transform. -/
theorem C24_fwd_ignored {R C : Type} (N : Num R C) (f : Xf)
    (hf : f ∈ [Xf.newton8, .newton16, .elliptical, .perturbed]) (t : Tau R C) (b : Bool)
    (x w co : List R) (nw c : Nat) :
    runXf N f (withFwd t b) x w co nw c = runXf N f t x w co nw c := by
  simp only [List.mem_cons, List.not_mem_nil, or_false] at hf
  have hnp : ∀ s j cnt, nodePairs N (withFwd t b) c s j cnt = nodePairs N t c s j cnt := by
    intro s j cnt
    induction cnt generalizing j with
    | zero => rfl
    | succ n ih => rw [nodePairs, nodePairs, ih]; rfl
  rcases hf with rfl | rfl | rfl | rfl
  · simp only [runXf, newtonInterp, hnp]; rfl
  · simp only [runXf, newtonInterp, hnp]; rfl
  · rfl
  · rfl

end Verif
