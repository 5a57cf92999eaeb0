import Verif.Proofs.Linear

/-!
# C21, C22: the Fresnel sum, linearity of all transforms

Exact arithmetic (`Num.IsExact`); the libtmpl special functions are arbitrary, the Filon
integrands linear in the data.
-/
namespace Verif
open Spec

/-- An object with ten rows, used by the examples below. -/
noncomputable def realTau : Tau ℝ ℂ :=
  { arr := fun _ => some (List.replicate 10 1)
    carr := fun _ => some (List.replicate 10 Complex.I)
    dx := 1, normeq := 1, sigma := 1, ecc := 0, peri := 0, res := 1
    perturb := [0, 0, 0, 0, 0], range0 := 0, range1 := 1, req0 := 0, req1 := 1
    start := 0, nUsed := 10, arrSize := 10, window := .rect, psinum := .fresnel
    useNorm := false, useFwd := false, bfac := false, err := none, order := 3 }

theorem realTau_ready : Ready realTau 10 :=
  ⟨fun _ _ => ⟨_, rfl, by simp⟩, ⟨_, rfl, by simp⟩, le_refl _⟩

/-- **C21** The Fresnel transform is `(1+i) s` times the sum over the whole symmetric
window; the sample at distance `d > 0` has weight `w_d exp(-i sgn psi_d)` with
`psi_d = x_d / F²` (the driver stores `(pi/2)(r - r0)²` in `x`), the centre has weight 1.
Array entry `q - d` belongs to distance `d`. -/
theorem C21_fresnel_sum {N : Num ℝ ℂ} (hN : N.IsExact) {t : Tau ℝ ℂ} {l : List ℂ} {Fs : List ℝ}
    {F : ℝ} {x w : List ℝ} {q c : Nat} (hl : t.carr .tIn = some l)
    (hF : t.arr .F = some Fs) (hFc : Fs[c]? = some F)
    (hx : q ≤ x.length) (hw : q ≤ w.length) (h1 : q ≤ c) (h2 : c + q < l.length)
    (psi : Nat → ℝ) (hpsi : ∀ d, 1 ≤ d → d ≤ q → psi d = val x (q - d) / F ^ 2)
    (sgn : ℝ) (hsgn : sgn = if t.useFwd then -1 else 1)
    (K : Nat → ℂ) (hK0 : K c = 1)
    (hK : ∀ d, 1 ≤ d → d ≤ q →
      K (c - d) = val w (q - d) * Complex.exp (-(sgn * psi d) * Complex.I) ∧
      K (c + d) = val w (q - d) * Complex.exp (-(sgn * psi d) * Complex.I)) :
    fresnel N t x w q c = .ok
      ((1 + Complex.I) *
        (if t.useNorm then 1 / (√2 * ‖∑ i ∈ Finset.Icc (c - q) (c + q), K i‖) else t.dx / (2 * F) : ℝ) *
        ∑ i ∈ Finset.Icc (c - q) (c + q), K i * sample l i) := by
  have hF' : rdP (t.arr .F) c = .ok F := by rw [hF, rdP_some]; exact rd_eq_ok.2 hFc
  rw [fresnel_eq hN hl hF' hx hw h1 h2 (φ := fun m => sgn * (val x m / F ^ 2))
    (fun m _ => by rw [hsgn]; split <;> ring)]
  have hK' : ∀ i ∈ window c q, halfKer w (fun m => sgn * (val x m / F ^ 2))
      (fun m => sgn * (val x m / F ^ 2)) q c i = K i := by
    intro i hi
    obtain ⟨a, b⟩ := Finset.mem_Icc.1 hi
    unfold halfKer
    split_ifs with e1 e2
    · rw [e1, hK0]
    · have := (hK (c - i) (by omega) (by omega)).1
      rw [show c - (c - i) = i by omega] at this
      rw [this, hpsi _ (by omega) (by omega)]
      push_cast; rfl
    · have := (hK (i - c) (by omega) (by omega)).2
      rw [show c + (i - c) = i by omega] at this
      rw [this, hpsi _ (by omega) (by omega)]
      push_cast; rfl
  have e1 := Finset.sum_congr rfl hK'
  have e2 : windowSum (halfKer w (fun m => sgn * (val x m / F ^ 2))
      (fun m => sgn * (val x m / F ^ 2)) q c) l c q = ∑ i ∈ window c q, K i * sample l i :=
    Finset.sum_congr rfl fun i hi => by rw [hK' i hi]
  rw [e1, e2]
  rfl

/-- The window of the example: two samples on each side of row 4. -/
example : ∃ K : Nat → ℂ, fresnel realNum realTau [4, 1] [1/2, 1] 2 4 = .ok
    ((1 + Complex.I) * (1 / 2 : ℝ) * ∑ i ∈ Finset.Icc 2 6, K i * sample (List.replicate 10 Complex.I) i) := by
  refine ⟨fun i => if i = 4 then 1 else if i = 3 ∨ i = 5 then Complex.exp (-1 * Complex.I)
    else 1/2 * Complex.exp (-4 * Complex.I), ?_⟩
  rw [C21_fresnel_sum realNum_exact (l := List.replicate 10 Complex.I) (Fs := List.replicate 10 1)
    (F := 1) rfl rfl (by simp) (by simp) (by simp) (by simp) (by simp)
    (fun d => if d = 1 then 1 else 4) (fun d h1 h2 => ?_) 1 (by simp [realTau])
    (fun i => if i = 4 then 1 else if i = 3 ∨ i = 5 then Complex.exp (-1 * Complex.I)
    else 1/2 * Complex.exp (-4 * Complex.I)) (by simp) (fun d h1 h2 => ?_)]
  · simp [realTau]
  · obtain rfl | rfl : d = 1 ∨ d = 2 := by omega
    all_goals norm_num [val]
  · obtain rfl | rfl : d = 1 ∨ d = 2 := by omega
    all_goals norm_num [val]

/-- **C22** Every transform is one fixed linear combination of the samples in its window:
the coefficients depend on geometry, window and flags, but not on the data. -/
theorem C22_functional {N : Num ℝ ℂ} (hN : N.IsExact) (hf : N.FilonLinear) {t : Tau ℝ ℂ} {A : Nat}
    (h : Ready t A) {f : Xf} {x w co : List ℝ} {nw c q : Nat} (hfit : Fits f t x w co nw c A q) :
    ∃ K : Nat → ℂ, ∀ l : List ℂ, A ≤ l.length →
      runXf N f (withData t l) x w co nw c = .ok (∑ i ∈ Finset.Icc (c - q) (c + q), K i * sample l i) := by
  obtain ⟨K, hK⟩ := runXf_lin hN h hf hfit
  exact ⟨K, fun l hl => hK ⟨l, hl⟩⟩

/-- **C22** Superposition: scaling and adding inputs scales and adds outputs. -/
theorem C22_superposition {N : Num ℝ ℂ} (hN : N.IsExact) (hf : N.FilonLinear) {t : Tau ℝ ℂ} {A : Nat}
    (h : Ready t A) {f : Xf} {x w co : List ℝ} {nw c q : Nat} (hfit : Fits f t x w co nw c A q)
    (a b : ℂ) (l m s : List ℂ) (hl : A ≤ l.length) (hm : A ≤ m.length) (hs : A ≤ s.length)
    (hsum : ∀ i, i < A → sample s i = a * sample l i + b * sample m i) :
    ∃ u v, runXf N f (withData t l) x w co nw c = .ok u ∧
      runXf N f (withData t m) x w co nw c = .ok v ∧
      runXf N f (withData t s) x w co nw c = .ok (a * u + b * v) := by
  obtain ⟨K, hK⟩ := runXf_lin hN h hf hfit
  refine ⟨_, _, hK ⟨l, hl⟩, hK ⟨m, hm⟩, (hK ⟨s, hs⟩).trans ?_⟩
  rw [Finset.mul_sum, Finset.mul_sum, ← Finset.sum_add_distrib]
  congr 1
  refine Finset.sum_congr rfl fun i hi => ?_
  have := hfit.right
  show K i * sample s i = _
  rw [hsum i (by have := (Finset.mem_Icc.1 hi).2; omega)]
  ring

/-- Every transform can be run on the example object. -/
example (f : Xf) : ∃ x w co : List ℝ, ∃ nw, Fits f realTau x w co nw 4 10 2 := by
  refine ⟨[1, 1], [1, 1, 1, 1, 1], [1, 1, 1], match f with
    | .riemann | .filon01 | .filon11 | .elliptical | .perturbed | .filon02 | .filon12 => 5
    | _ => 2, by omega, by omega, ?_, ?_⟩
  · cases f <;> simp
  · cases f <;> simp [realTau]

end Verif
