import Verif.Spec.Exact
import Verif.Proofs.Safe
import Mathlib.Tactic.Ring
import Mathlib.Tactic.LinearCombination

/-! Closed formulas for the transforms that sum over a window. -/
namespace Verif
open Spec

/-- A loop that only accumulates. -/
theorem forRange_acc {M : Type} [AddCommMonoid M] (f : Nat → M) {body : Nat → M → Res M} :
    ∀ (cnt lo : Nat) (s : M), (∀ i s, lo ≤ i → i < lo + cnt → body i s = .ok (s + f i)) →
      forRange lo cnt body s = .ok (s + ∑ i ∈ Finset.range cnt, f (lo + i)) := by
  intro cnt
  induction cnt with
  | zero => intro lo s _; simp [forRange]
  | succ cnt ih =>
    intro lo s h
    rw [forRange, h lo s (le_refl _) (by omega), Res.ok_bind,
      ih (lo + 1) _ (fun i s a b => h i s (by omega) (by omega)), Finset.sum_range_succ']
    congr 1
    rw [add_assoc, add_comm (f lo)]
    congr 2
    exact Finset.sum_congr rfl fun i _ => by rw [show lo + 1 + i = lo + (i + 1) by omega]

theorem rd_val {w : List ℝ} {i : Nat} (h : i < w.length) : rd w i = .ok (val w i) := by
  rw [rd_lt h]; simp [val, h]

theorem rdT_ok {t : Tau ℝ ℂ} {l : List ℂ} (hl : t.carr .tIn = some l) {i : Nat}
    (h : i < l.length) : rdP (t.carr .tIn) i = .ok (sample l i) := by
  rw [hl, rdP_some, rd_lt h]
  simp [sample, h]

theorem subIdx_le {a b : Nat} (h : b ≤ a) : subIdx a b = .ok (a - b) := by simp [subIdx, h]

theorem mem_window {c n i : Nat} (h1 : c - n ≤ i) (h2 : i ≤ c + n) : i ∈ window c n :=
  Finset.mem_Icc.2 ⟨h1, h2⟩

/-- The window as centre and pairs, in the order of the half-window arrays. -/
theorem sum_window {M : Type} [AddCommMonoid M] (f : Nat → M) (c : Nat) :
    ∀ n, n ≤ c → ∑ i ∈ window c n, f i =
      f c + ∑ m ∈ Finset.range n, (f (c - (n - m)) + f (c + (n - m))) := by
  intro n
  induction n with
  | zero => intro _; simp [window]
  | succ n ih =>
    intro h
    have e : window c (n + 1) = insert (c - (n + 1)) (insert (c + (n + 1)) (window c n)) := by
      ext i; simp only [window, Finset.mem_Icc, Finset.mem_insert]; omega
    rw [e, Finset.sum_insert, Finset.sum_insert, ih (by omega), Finset.sum_range_succ']
    · have : ∀ m, n + 1 - (m + 1) = n - m := fun m => by omega
      simp only [this, Nat.sub_zero]
      abel
    · simp only [window, Finset.mem_Icc]; omega
    · simp only [window, Finset.mem_Icc, Finset.mem_insert]; omega

/-- The window in the order of the full-window arrays. -/
theorem sum_window_full {M : Type} [AddCommMonoid M] (f : Nat → M) {c n : Nat} (h : n ≤ c) :
    ∑ i ∈ window c n, f i = ∑ m ∈ Finset.range (2 * n + 1), f (c - n + m) := by
  rw [window, show Finset.Icc (c - n) (c + n) = Finset.Ico (c - n) (c + n + 1) by
    ext i; simp only [Finset.mem_Icc, Finset.mem_Ico]; omega, Finset.sum_Ico_eq_sum_range]
  congr 2
  omega

section
variable {N : Num ℝ ℂ} (hN : N.IsExact) {t : Tau ℝ ℂ} {A : Nat}
  {l : List ℂ} (hl : t.carr .tIn = some l)
include hN

theorem czero_eq : N.czero = 0 := by simp [Num.czero, hN.rect, hN.lit]
theorem cone_eq : N.cone = 1 := by simp [Num.cone, hN.rect, hN.lit]
theorem ofNat_eq (n : Nat) : N.ofNat n = n := by simp [Num.ofNat, hN.lit]

theorem diagScale_eq (s : ℝ) (z : ℂ) : diagScale N s z = s * (1 + Complex.I) * z := by
  rw [diagScale, hN.cmul, hN.rect]; ring

theorem polar_neg (r θ : ℝ) : N.polar r (N.neg θ) = r * Complex.exp (-θ * Complex.I) := by
  rw [hN.polar, hN.neg]; push_cast; rfl

include hl

/-- The Riemann sum omits the last point of the window. -/
theorem riemann_eq {w : List ℝ} {q c : Nat} {k : Nat → ℂ}
    (hk : ∀ i, c - q ≤ i → i < c + q → kernel N t c i = .ok (k i))
    (hw : 2 * q ≤ w.length) (h1 : q ≤ c) (h2 : c + q ≤ l.length) :
    riemann N t w (2 * q + 1) c = .ok
      ((if t.useNorm then 1 / ‖∑ n ∈ Finset.range (2 * q), val w n * k (c - q + n)‖ else t.dx : ℝ) *
        ∑ n ∈ Finset.range (2 * q), val w n * k (c - q + n) * sample l (c - q + n)) := by
  rw [riemann, subIdx_le (by omega), Res.ok_bind, subIdx_le (by omega), Res.ok_bind,
    show (2 * q + 1) / 2 = q by omega,
    forRange_acc (M := ℂ × ℂ) (fun n => (if t.useNorm then val w n * k (c - q + n) else 0,
      val w n * k (c - q + n) * sample l (c - q + n)))]
  · rw [Res.ok_bind]
    congr 1
    simp only [Prod.fst_add, Prod.snd_add, Prod.fst_sum, Prod.snd_sum, czero_eq hN, zero_add,
      hN.crmul, hN.div, hN.lit, hN.cabs]
    cases t.useNorm <;> simp
  · intro n s _ hn
    rw [riemannStep, hk _ (by omega) (by omega), Res.ok_bind, rd_val (by omega), Res.ok_bind,
      rdT_ok hl (by omega), Res.ok_bind]
    cases t.useNorm <;> simp [hN.cadd, hN.cmul, hN.crmul, Prod.ext_iff]

theorem psiSum_eq {w : List ℝ} {q c : Nat} {psi : Nat → Res ℝ} {p : Nat → ℝ}
    (hp : ∀ i, c - q ≤ i → i ≤ c + q → psi i = .ok (p i))
    (hw : 2 * q + 1 ≤ w.length) (h1 : q ≤ c) (h2 : c + q < l.length) :
    forRange 0 (2 * q + 1) (psiStep N psi t w (c - q)) (N.czero, N.czero) = .ok
      (∑ i ∈ window c q, val w (i + q - c) * Complex.exp (-p i * Complex.I),
        windowSum (fun i => val w (i + q - c) * Complex.exp (-p i * Complex.I)) l c q) := by
  rw [forRange_acc (M := ℂ × ℂ) (fun n => (val w n * Complex.exp (-p (c - q + n) * Complex.I),
      val w n * Complex.exp (-p (c - q + n) * Complex.I) * sample l (c - q + n)))]
  · rw [windowSum, sum_window_full _ h1, sum_window_full _ h1]
    have e : ∀ n, c - q + n + q - c = n := fun n => by omega
    simp only [czero_eq hN, e]
    congr 1
    ext <;> simp [Prod.fst_sum, Prod.snd_sum]
  · intro n s _ hn
    rw [psiStep, hp _ (by omega) (by omega), Res.ok_bind, rd_val (by omega), Res.ok_bind,
      rdT_ok hl (by omega), Res.ok_bind]
    simp [hN.cadd, hN.cmul, polar_neg hN, Prod.ext_iff]

/-- Weight of the sample `i` in the elliptical and perturbed sums. -/
theorem elliptical_eq {w : List ℝ} {q c : Nat} {p : Nat → ℝ}
    (hp : ∀ i, c - q ≤ i → i ≤ c + q → ellPsi N t c i = .ok (p i))
    (hw : 2 * q + 1 ≤ w.length) (h1 : q ≤ c) (h2 : c + q < l.length) :
    elliptical N t w (2 * q + 1) c = .ok
      ((1 + Complex.I) / √2 / ‖∑ i ∈ window c q, val w (i + q - c) * Complex.exp (-p i * Complex.I)‖ *
        windowSum (fun i => val w (i + q - c) * Complex.exp (-p i * Complex.I)) l c q) := by
  rw [elliptical, subIdx_le (by omega), Res.ok_bind, show (2 * q + 1 - 1) / 2 = q by omega,
    psiSum_eq hN hl hp hw h1 h2, Res.ok_bind]
  simp only [diagScale_eq hN, hN.div, hN.mul, hN.lit, hN.sqrtTwo, hN.cabs]
  congr 2
  push_cast
  have : ((√2 : ℝ) : ℂ) * (√2 : ℝ) = 2 := by
    rw [← Complex.ofReal_mul, Real.mul_self_sqrt (by norm_num)]; norm_num
  have h0 : ((√2 : ℝ) : ℂ) ≠ 0 := by
    simp
  have e : (1 / 2 : ℂ) * (√2 : ℝ) = 1 / (√2 : ℝ) := by
    field_simp; rw [sq, this]
  rw [← mul_div_assoc, e]; ring

theorem perturbed_eq {w : List ℝ} {q c : Nat} {p : Nat → ℝ}
    (hp : ∀ i, c - q ≤ i → i ≤ c + q → pertPsi N t c i = .ok (p i))
    (hw : 2 * q + 1 ≤ w.length) (h1 : q ≤ c) (h2 : c + q < l.length) :
    perturbed N t w (2 * q + 1) c = .ok
      ((1 + Complex.I) / √2 / ‖∑ i ∈ window c q, val w (i + q - c) * Complex.exp (-p i * Complex.I)‖ *
        windowSum (fun i => val w (i + q - c) * Complex.exp (-p i * Complex.I)) l c q) := by
  rw [perturbed, subIdx_le (by omega), Res.ok_bind, show (2 * q + 1 - 1) / 2 = q by omega,
    psiSum_eq hN hl hp hw h1 h2, Res.ok_bind]
  simp only [diagScale_eq hN, hN.div, hN.rcprSqrtTwo, hN.cabs]
  congr 2
  push_cast
  ring

omit hN hl in
theorem sum_halfKer {w : List ℝ} {φl φr : Nat → ℝ} {q c : Nat} (h1 : q ≤ c) (g : Nat → ℂ) :
    ∑ i ∈ window c q, halfKer w φl φr q c i * g i = g c + ∑ m ∈ Finset.range q,
      (val w m * Complex.exp (-φl m * Complex.I) * g (c - (q - m)) +
        val w m * Complex.exp (-φr m * Complex.I) * g (c + (q - m))) := by
  rw [sum_window _ _ _ h1]
  congr 1
  · simp [halfKer]
  · refine Finset.sum_congr rfl fun m hm => ?_
    have hm := Finset.mem_range.1 hm
    have e1 : q - (c - (c - (q - m))) = m := by omega
    have e2 : q - (c + (q - m) - c) = m := by omega
    rw [halfKer, if_neg (by omega), if_pos (by omega), e1, halfKer, if_neg (by omega),
      if_neg (by omega), e2]

/-- The Fresnel transform, C21. -/
theorem fresnel_eq {x w : List ℝ} {q c : Nat} {F : ℝ} (hF : rdP (t.arr .F) c = .ok F)
    (hx : q ≤ x.length) (hw : q ≤ w.length) (h1 : q ≤ c) (h2 : c + q < l.length) {φ : Nat → ℝ}
    (hφ : ∀ m, m < q → φ m = (if t.useFwd then -1 else 1) * val x m / F ^ 2) :
    fresnel N t x w q c = .ok
      ((1 + Complex.I) * (if t.useNorm then 1 / (√2 * ‖∑ i ∈ window c q, halfKer w φ φ q c i‖)
          else t.dx / (2 * F) : ℝ) * windowSum (halfKer w φ φ q c) l c q) := by
  rw [fresnel, hF, Res.ok_bind, rdT_ok hl (by omega), Res.ok_bind,
    forRange_acc (M := ℂ × ℂ) (fun n =>
      (if t.useNorm then val w n * Complex.exp (-φ n * Complex.I) else 0,
      val w n * Complex.exp (-φ n * Complex.I) * sample l (c - (q - n)) +
        val w n * Complex.exp (-φ n * Complex.I) * sample l (c + (q - n))))]
  · rw [Res.ok_bind]
    have e1 := sum_halfKer (w := w) (φl := φ) (φr := φ) h1 (fun _ => 1)
    have e2 := sum_halfKer (w := w) (φl := φ) (φr := φ) h1 (sample l)
    simp only [mul_one] at e1
    rw [windowSum, e1, e2]
    simp only [Prod.fst_add, Prod.snd_add, Prod.fst_sum, Prod.snd_sum, Nat.zero_add, czero_eq hN,
      zero_add]
    set S := sample l c + _ with hS
    have hrect : ∀ s : ℝ, N.rect (N.mul s (N.sub (N.re S) (N.im S)))
        (N.mul s (N.add (N.re S) (N.im S))) = (1 + Complex.I) * s * S := by
      intro s
      simp only [hN.rect, hN.mul, hN.sub, hN.add, hN.re, hN.im]
      apply Complex.ext <;> simp <;> ring
    rw [hrect]
    congr 4
    simp only [hN.div, hN.mul, hN.lit, hN.rcprSqrtTwo, hN.cabs, hN.rect, hN.add, hN.re, hN.im]
    cases t.useNorm
    · simp; ring
    · simp only [if_true, ← Finset.sum_add_distrib]
      have : ∀ z : ℂ, (((((2 : ℚ) : ℝ) * z.re + ((1 : ℚ) : ℝ) : ℝ) : ℂ) +
          ((((2 : ℚ) : ℝ) * z.im : ℝ) : ℂ) * Complex.I) = 1 + (z + z) := by
        intro z; apply Complex.ext <;> simp <;> ring
      rw [this, ← Finset.sum_add_distrib, div_div]
  · intro n s _ hn
    rw [fresnelStep, rd_val (by omega), Res.ok_bind, rd_val (by omega), Res.ok_bind,
      subIdx_le (by omega), Res.ok_bind,
      rdT_ok hl (by omega), Res.ok_bind, rdT_ok hl (by omega), Res.ok_bind]
    have : N.mul (N.mul (N.mul (N.lit (if t.useFwd = true then -1 else 1)) (N.div (N.lit 1) F))
        (N.div (N.lit 1) F)) (val x n) = φ n := by
      rw [hφ n (by omega)]
      simp only [hN.mul, hN.lit, hN.div]
      cases t.useFwd <;> simp <;> field_simp
    rw [this, polar_neg hN]
    cases t.useNorm <;> simp [hN.cadd, hN.cmul, Prod.ext_iff] <;> ring

theorem legendre_eq (v : Leg) {x w co : List ℝ} {q c : Nat} {D k F : ℝ}
    (hD : rdP (t.arr .D) c = .ok D) (hk : rdP (t.arr .k) c = .ok k) (hF : rdP (t.arr .F) c = .ok F)
    (hx : q ≤ x.length) (hw : q ≤ w.length) (h1 : q ≤ c) (h2 : c + q < l.length) {φl φr : Nat → ℝ}
    (hφ : ∀ m, m < q → legPsi N v co t.order (k * D) (val x m * (1 / D)) = .ok (φl m, φr m)) :
    legendre N v t x w co q c = .ok
      ((1 + Complex.I) * (if legNorm v then 1 / (√2 * ‖∑ i ∈ window c q, halfKer w φl φr q c i‖)
          else t.dx / (2 * F) : ℝ) *
        windowSum (halfKer w φl φr q c) l c q) := by
  have e1 := sum_halfKer (w := w) (φl := φl) (φr := φr) h1 (fun _ => 1)
  have e2 := sum_halfKer (w := w) (φl := φl) (φr := φr) h1 (sample l)
  simp only [mul_one] at e1
  unfold legendre
  rw [hD, Res.ok_bind, hk, Res.ok_bind]
  have hloop : forRange 0 q (legStep N (legPsi N v co t.order (N.mul k D)) t x w
      (N.div (N.lit 1) D) q c) (N.czero, N.czero) = .ok
      (∑ i ∈ window c q, halfKer w φl φr q c i - 1, windowSum (halfKer w φl φr q c) l c q - sample l c) := by
    rw [forRange_acc (M := ℂ × ℂ) (fun n =>
      (val w n * Complex.exp (-φl n * Complex.I) + val w n * Complex.exp (-φr n * Complex.I),
        val w n * Complex.exp (-φl n * Complex.I) * sample l (c - (q - n)) +
        val w n * Complex.exp (-φr n * Complex.I) * sample l (c + (q - n))))]
    · rw [windowSum, e1, e2]
      simp only [czero_eq hN, zero_add, add_sub_cancel_left]
      congr 1
      ext <;> simp [Prod.fst_sum, Prod.snd_sum]
    · intro n s _ hn
      rw [legStep, rd_val (by omega), Res.ok_bind]
      have := hφ n (by omega)
      rw [show N.mul (val x n) (N.div (N.lit 1) D) = val x n * (1 / D) by
          simp [hN.mul, hN.div, hN.lit], hN.mul, this, Res.ok_bind, rd_val (by omega), Res.ok_bind,
        subIdx_le (by omega), Res.ok_bind,
        rdT_ok hl (by omega), Res.ok_bind, rdT_ok hl (by omega), Res.ok_bind]
      simp only [polar_neg hN]
      simp [hN.cadd, hN.cmul, Prod.ext_iff, add_assoc]
  cases v
  all_goals
    simp only [hF, legNorm, if_true, Bool.false_eq_true, if_false, Res.ok_bind, hloop,
      rdT_ok hl (show c < l.length by omega), diagScale_eq hN, hN.cadd, sub_add_cancel]
    simp only [hN.div, hN.mul, hN.lit, hN.rcprSqrtTwo, hN.cabs, hN.caddr]
    congr 2
    push_cast
    try rw [sub_add_cancel]
    ring

/-- Newton8 (`b = false`) and Newton16 (`b = true`). -/
theorem newtonInterp_eq (b : Bool) {x w : List ℝ} {q c half : Nat} {pairs : List (ℝ × ℝ)}
    (hhalf : half = if b then 8 else 4)
    (hp : nodePairs N t c (q / half) 0 half = .ok pairs)
    (hx : q ≤ x.length) (hw : q ≤ w.length) (h1 : q ≤ c) (h2 : c + q < l.length) {φl φr : Nat → ℝ}
    (hφ : ∀ m, m < q → interpPsi N (interpCoeffs N (if b then rows16 else rows8) pairs)
      (val x m * (1 / (2 * half * t.dx * (q / half : Nat)))) = (φl m, φr m)) :
    newtonInterp N b t x w q c = .ok
      ((if b || t.useNorm then
          (1 + Complex.I) * (1 / (√2 * ‖∑ i ∈ window c q, halfKer w φl φr q c i‖) : ℝ) else 1) *
        windowSum (halfKer w φl φr q c) l c q) := by
  have e1 := sum_halfKer (w := w) (φl := φl) (φr := φr) h1 (fun _ => 1)
  have e2 := sum_halfKer (w := w) (φl := φl) (φr := φr) h1 (sample l)
  simp only [mul_one] at e1
  have hrw : N.div (N.lit 1) (N.mul (N.mul (N.ofNat (2 * half)) t.dx) (N.ofNat (q / half))) =
      1 / (2 * half * t.dx * (q / half : Nat)) := by
    simp only [hN.div, hN.mul, hN.lit, ofNat_eq hN]; push_cast; rfl
  have hloop : forRange 0 q (interpStep N (b || t.useNorm) t
      (interpCoeffs N (if b then rows16 else rows8) pairs) x w
      (N.div (N.lit 1) (N.mul (N.mul (N.ofNat (2 * half)) t.dx) (N.ofNat (q / half)))) q c)
      (N.cone, sample l c) = .ok
      (if b || t.useNorm then ∑ i ∈ window c q, halfKer w φl φr q c i else 1,
        windowSum (halfKer w φl φr q c) l c q) := by
    rw [hrw, forRange_acc (M := ℂ × ℂ) (fun n =>
      (if b || t.useNorm then
        val w n * Complex.exp (-φl n * Complex.I) + val w n * Complex.exp (-φr n * Complex.I) else 0,
        val w n * Complex.exp (-φl n * Complex.I) * sample l (c - (q - n)) +
        val w n * Complex.exp (-φr n * Complex.I) * sample l (c + (q - n))))]
    · rw [windowSum, e1, e2]
      simp only [cone_eq hN, zero_add]
      congr 1
      ext <;> cases (b || t.useNorm) <;> simp [Prod.fst_sum, Prod.snd_sum]
    · intro n s _ hn
      rw [interpStep, rd_val (by omega), Res.ok_bind]
      have := hφ n (by omega)
      rw [hN.mul, this, rd_val (by omega), Res.ok_bind,
        subIdx_le (by omega), Res.ok_bind,
        rdT_ok hl (by omega), Res.ok_bind, subIdx_le (by omega), Res.ok_bind,
        rdT_ok hl (by omega), Res.ok_bind,
        show c - q + n = c - (q - n) by omega, show c + q - n = c + (q - n) by omega]
      simp only [polar_neg hN]
      cases (b || t.useNorm) <;> simp [hN.cadd, hN.cmul, Prod.ext_iff, add_assoc]
  unfold newtonInterp
  rw [rdT_ok hl (by omega), Res.ok_bind]
  simp only [← hhalf, hp, Res.ok_bind, hloop]
  simp only [hN.cmul, hN.rect, hN.div, hN.rcprSqrtTwo, hN.cabs]
  congr 1
  generalize windowSum _ l c q = W
  cases b <;> cases t.useNorm <;> simp only [Bool.or_self, Bool.or_true, Bool.or_false, if_true,
    Bool.false_eq_true, if_false] <;> push_cast <;> ring

end

/-- A loop whose states are known. -/
theorem forRange_states {σ : Type} (st : Nat → σ) {body : Nat → σ → Res σ} :
    ∀ (cnt lo : Nat), (∀ i, lo ≤ i → i < lo + cnt → body i (st i) = .ok (st (i + 1))) →
      forRange lo cnt body (st lo) = .ok (st (lo + cnt)) := by
  intro cnt
  induction cnt with
  | zero => intro lo _; rfl
  | succ cnt ih =>
    intro lo h
    rw [forRange, h lo (le_refl _) (by omega), Res.ok_bind,
      ih (lo + 1) (fun i a b => h i (by omega) (by omega)),
      show lo + 1 + cnt = lo + (cnt + 1) by omega]

section
variable {N : Num ℝ ℂ} (hN : N.IsExact) {t : Tau ℝ ℂ} {A : Nat}
  {l : List ℂ} (hl : t.carr .tIn = some l)

/-- The data times window and kernel amplitude, at window point `n`. -/
noncomputable def scaled (w : List ℝ) (sc : Nat → ℝ) (l : List ℂ) (o n : Nat) : ℂ :=
  (sc n * val w n : ℝ) * sample l (o + n)

include hN hl

theorem filonPoint_eq {w : List ℝ} {c o n : Nat} {d : Option ℝ} {r : ℝ × ℝ × ℝ}
    (hp : phaseWeight N t c o d = .ok r) (hw : n < w.length) (ho : o < l.length) :
    filonPoint N t w c o n d = .ok
      (r.1 * val w n, (r.1 * val w n : ℝ) * sample l o, r.2.1, r.2.2) := by
  rw [filonPoint, hp, Res.ok_bind, rd_val hw, Res.ok_bind, rdT_ok hl ho, Res.ok_bind]
  simp only [hN.mul, hN.crmul]

/-- The Filon functions with linear phase; `z i`, `s i` are the scaled data and weights. -/
theorem filon1_eq (deg0 : Bool) {w : List ℝ} {q c : Nat} {pw : Nat → ℝ × ℝ × ℝ}
    (hp : ∀ n, n ≤ 2 * q → phaseWeight N t c (c - q + n) none = .ok (pw n))
    (hw : 2 * q + 1 ≤ w.length) (h1 : q ≤ c) (h2 : c + q < l.length)
    {z : Nat → ℂ} (hz : ∀ n, n ≤ 2 * q → z n = scaled w (fun n => (pw n).1) l (c - q) n)
    {s : Nat → ℝ} (hs : ∀ n, n ≤ 2 * q → s n = (pw n).1 * val w n) :
    filon1 N deg0 t w (2 * q + 1) c = .ok
      ((if t.useNorm then 1 / ‖∑ n ∈ Finset.range (2 * q),
          (if deg0 then N.rFilon01 ((s n + s (n + 1)) / 2) (pw n).2.1 (pw (n + 1)).2.1 t.dx
           else N.rFilon11 (s n) (s (n + 1)) (pw n).2.1 (pw (n + 1)).2.1 t.dx)‖ else 1 : ℝ) *
        ∑ n ∈ Finset.range (2 * q),
          (if deg0 then N.cFilon01 ((z n + z (n + 1)) / 2) (pw n).2.1 (pw (n + 1)).2.1 t.dx
           else N.cFilon11 (z n) (z (n + 1)) (pw n).2.1 (pw (n + 1)).2.1 t.dx)) := by
  have key : ∀ n, n ≤ 2 * q → filonPoint N t w c (c - q + n) n none =
      .ok (s n, z n, (pw n).2.1, (pw n).2.2) := fun n hn => by
    rw [filonPoint_eq hN hl (hp n hn) (by omega) (by omega), hz n hn, hs n hn]; rfl
  rw [filon1, subIdx_le (by omega), Res.ok_bind, show (2 * q + 1) / 2 = q by omega,
    show filonPoint N t w c (c - q) 0 none = _ from key 0 (by omega), Res.ok_bind,
    subIdx_le (by omega), Res.ok_bind, show 2 * q + 1 - 1 = 2 * q by omega]
  have := forRange_states (body := filonStep N deg0 t w (c - q) c) (fun m => FilonSt.mk (s m) (z m)
    (pw m).2.1
    (∑ n ∈ Finset.range m, if t.useNorm then
      (if deg0 then N.rFilon01 ((s n + s (n + 1)) / 2) (pw n).2.1 (pw (n + 1)).2.1 t.dx
           else N.rFilon11 (s n) (s (n + 1)) (pw n).2.1 (pw (n + 1)).2.1 t.dx) else 0)
    (∑ n ∈ Finset.range m,
      (if deg0 then N.cFilon01 ((z n + z (n + 1)) / 2) (pw n).2.1 (pw (n + 1)).2.1 t.dx
           else N.cFilon11 (z n) (z (n + 1)) (pw n).2.1 (pw (n + 1)).2.1 t.dx))) (2 * q) 0
    (fun n _ hn => by
      rw [filonStep, show c - q + n + 1 = c - q + (n + 1) by omega, key (n + 1) (by omega),
        Res.ok_bind, Finset.sum_range_succ, Finset.sum_range_succ]
      have e : N.mul (N.lit (1/2)) (N.add (s n) (s (n + 1))) = (s n + s (n + 1)) / 2 := by
        simp only [hN.mul, hN.lit, hN.add]; push_cast; ring
      simp only [e, hN.cadd, hN.cmid]
      cases t.useNorm <;> simp)
  simp only [Finset.sum_range_zero, zero_add] at this
  rw [czero_eq hN, this, Res.ok_bind]
  congr 1
  simp only [hN.crmul, hN.div, hN.lit, hN.cabs]
  cases t.useNorm <;> simp

/-- The Filon functions with quadratic phase. -/
theorem filon2_eq (deg0 : Bool) {w : List ℝ} {q c : Nat} {pw : Nat → ℝ × ℝ × ℝ} {phi : ℝ}
    (hphi : deg0 = true ∨ rdP (t.arr .phi) (c - q) = .ok phi)
    (hp0 : phaseWeight N t c (c - q) (if deg0 then none else some phi) = .ok (pw 0))
    (hp : ∀ n, n < 2 * q → phaseWeight N t c (c - q + (n + 1))
      (if deg0 then none else some (pw n).2.2) = .ok (pw (n + 1)))
    (hq : 0 < q) (hw : 2 * q + 1 ≤ w.length) (h1 : q ≤ c) (h2 : c + q < l.length)
    {z : Nat → ℂ} (hz : ∀ n, n ≤ 2 * q → z n = scaled w (fun n => (pw n).1) l (c - q) n) :
    filon2 N deg0 t w (2 * q + 1) c = .ok (∑ m ∈ Finset.range q,
          (if deg0 then N.cFilon02 ((z (2*m) + z (2*m + 1)) / 2) ((z (2*m+1) + z (2*m + 2)) / 2)
            (pw (2*m)).2.1 (pw (2*m + 1)).2.1 (pw (2*m + 2)).2.1 t.dx
           else N.cFilon12 (z (2*m)) (z (2*m + 1)) (z (2*m + 2))
            (pw (2*m)).2.1 (pw (2*m + 1)).2.1 (pw (2*m + 2)).2.1 t.dx)) := by
  have key : ∀ n, n < 2 * q → filonPoint N t w c (c - q + (n + 1)) (n + 1)
      (if deg0 then none else some (pw n).2.2) =
      .ok ((pw (n+1)).1 * val w (n+1), z (n+1), (pw (n+1)).2.1, (pw (n+1)).2.2) := fun n hn => by
    rw [filonPoint_eq hN hl (hp n hn) (by omega) (by omega), hz (n+1) (by omega)]; rfl
  have key0 : filonPoint N t w c (c - q) 0 (if deg0 then none else some phi) =
      .ok ((pw 0).1 * val w 0, z 0, (pw 0).2.1, (pw 0).2.2) := by
    rw [filonPoint_eq hN hl hp0 (by omega) (by omega), hz 0 (by omega)]; rfl
  have := forRange_states (body := filon2Step N deg0 t w (c - q) c) (fun m => Filon2St.mk (z (2*m))
    (pw (2*m)).2.1 (pw (2*m)).2.2
    (∑ m ∈ Finset.range m,
      (if deg0 then N.cFilon02 ((z (2*m) + z (2*m + 1)) / 2) ((z (2*m+1) + z (2*m + 2)) / 2)
            (pw (2*m)).2.1 (pw (2*m + 1)).2.1 (pw (2*m + 2)).2.1 t.dx
           else N.cFilon12 (z (2*m)) (z (2*m + 1)) (z (2*m + 2))
            (pw (2*m)).2.1 (pw (2*m + 1)).2.1 (pw (2*m + 2)).2.1 t.dx))) q 0
    (fun m _ hm => by
      rw [filon2Step]
      simp only []
      rw [show c - q + 2 * m + 1 = c - q + (2 * m + 1) by omega, key (2 * m) (by omega),
        Res.ok_bind]
      simp only []
      rw [show c - q + 2 * m + 2 = c - q + (2 * m + 1 + 1) by omega,
        show 2 * m + 2 = 2 * m + 1 + 1 by omega, key (2 * m + 1) (by omega),
        Res.ok_bind, Finset.sum_range_succ]
      simp only [hN.cadd, hN.cmid, show 2 * (m + 1) = 2 * m + 1 + 1 by omega])
  simp only [Nat.zero_add] at this
  rw [filon2, subIdx_le (by omega), Res.ok_bind, show (2 * q + 1) / 2 = q by omega]
  cases deg0
  · have hphi : rdP (t.arr .phi) (c - q) = .ok phi := by simpa using hphi
    simp only [Bool.false_eq_true, if_false, hphi, Res.ok_bind] at key0 this ⊢
    rw [key0, Res.ok_bind, subIdx_le (by omega), Res.ok_bind,
      show (2 * q + 1 - 2 + 1) / 2 = q by omega, czero_eq hN]
    exact congrArg (· >>= _) this
  · simp only [if_true, Res.ok_bind] at key0 this ⊢
    rw [key0, Res.ok_bind, subIdx_le (by omega), Res.ok_bind,
      show (2 * q + 1 - 2 + 1) / 2 = q by omega, czero_eq hN]
    exact congrArg (· >>= _) this

/-- Newton4; `a`, `ψ` are interpolated weights (times window) and phases. -/
theorem newton4_eq {x w : List ℝ} {q c s o : Nat} {p0 p1 p2 p3 p4 : ℝ × ℝ × ℝ} (hs : s = q / 2)
    (ho : o = c - 2 * s)
    (e0 : phaseWeight N t c o none = .ok p0) (e1 : phaseWeight N t c (o + s) none = .ok p1)
    (e2 : phaseWeight N t c (o + 2 * s) none = .ok p2)
    (e3 : phaseWeight N t c (o + 3 * s) none = .ok p3)
    (e4 : phaseWeight N t c (o + 4 * s) none = .ok p4)
    (hq : 0 < q) (hx : q ≤ x.length) (hw : q ≤ w.length) (h1 : q ≤ c) (h2 : c + q < l.length)
    {aL aR ψL ψR : Nat → ℝ}
    (hψ : ∀ n, n < q → deg4Eval N (deg4Interp N p0.2.1 p1.2.1 p2.2.1 p3.2.1 p4.2.1)
      (val x n * (1 / (4 * t.dx * s))) = (ψL n, ψR n))
    (ha : ∀ n, n < q → deg4Eval N (deg4Interp N p0.1 p1.1 p2.1 p3.1 p4.1)
      (val x n * (1 / (4 * t.dx * s))) = (aL n, aR n)) {L R : Nat → ℂ}
    (hL : ∀ n, n < q → L n = (aL n * val w n : ℝ) * sample l (c - (q - n)))
    (hR : ∀ n, n < q → R n = (aR n * val w n : ℝ) * sample l (c + (q - n))) :
    newton4 N t x w q c = .ok (∑ n ∈ Finset.range (q - 1),
        (N.cFilon11 (L n) (L (n + 1)) (ψL n) (ψL (n + 1)) t.dx +
          N.cFilon11 (R (n + 1)) (R n) (ψR (n + 1)) (ψR n) t.dx) +
      N.cFilon12 (L (q - 1)) (p2.1 * sample l c) (R (q - 1)) (ψL (q - 1)) p2.2.1 (ψR (q - 1)) t.dx) := by
  have hrw : N.div (N.lit 1) (N.mul (N.mul (N.lit 4) t.dx) (N.ofNat s)) = 1 / (4 * t.dx * s) := by
    simp only [hN.div, hN.mul, hN.lit, ofNat_eq hN]; push_cast; rfl
  set pc := deg4Interp N p0.2.1 p1.2.1 p2.2.1 p3.2.1 p4.2.1 with hpc
  set wc := deg4Interp N p0.1 p1.1 p2.1 p3.1 p4.1 with hwc
  have key : ∀ n, n < q → n4Point N t x w pc wc
      (N.div (N.lit 1) (N.mul (N.mul (N.lit 4) t.dx) (N.ofNat s))) q c n =
      .ok (L n, R n, ψL n, ψR n) := fun n hn => by
    rw [hrw, n4Point, rd_val (by omega), Res.ok_bind, hN.mul, hψ n hn, ha n hn, rd_val (by omega),
      Res.ok_bind, subIdx_le (by omega), Res.ok_bind, rdT_ok hl (by omega), Res.ok_bind,
      subIdx_le (by omega), Res.ok_bind, rdT_ok hl (by omega), Res.ok_bind, hL n hn, hR n hn,
      show c - q + n = c - (q - n) by omega, show c + q - n = c + (q - n) by omega]
    simp only [hN.mul, hN.crmul]
  have := forRange_states (body := n4Step N t x w pc wc
      (N.div (N.lit 1) (N.mul (N.mul (N.lit 4) t.dx) (N.ofNat s))) q c)
    (fun m => N4St.mk (L (m - 1)) (R (m - 1)) (ψL (m - 1)) (ψR (m - 1))
      (∑ n ∈ Finset.range (m - 1),
        (N.cFilon11 (L n) (L (n + 1)) (ψL n) (ψL (n + 1)) t.dx +
          N.cFilon11 (R (n + 1)) (R n) (ψR (n + 1)) (ψR n) t.dx))) (q - 1) 1
    (fun m hm1 hm => by
      obtain ⟨n, rfl⟩ : ∃ n, m = n + 1 := ⟨m - 1, by omega⟩
      rw [n4Step, key _ (by omega), Res.ok_bind]
      simp only [Nat.add_sub_cancel, Finset.sum_range_succ, hN.cadd]
      rw [add_assoc])
  simp only [Nat.sub_self, Finset.sum_range_zero, show 1 + (q - 1) - 1 = q - 1 by omega] at this
  rw [newton4, ← hs, subIdx_le (by omega), Res.ok_bind, ← ho, e0, Res.ok_bind, e1, Res.ok_bind, e2,
    Res.ok_bind, e3, Res.ok_bind, e4, Res.ok_bind]
  rw [rdT_ok hl (by omega), Res.ok_bind, key 0 hq, Res.ok_bind, czero_eq hN, ← hpc, ← hwc, this, Res.ok_bind]
  simp only [hN.cadd, hN.crmul]

end
end Verif
