import Verif.Spec.Exact
import Verif.Proofs.Formula

/-! Linearity of the transforms in the data. -/
namespace Verif
open Spec

/-- Data arrays with at least `A` entries. -/
abbrev Data (A : Nat) := {l : List ℂ // A ≤ l.length}

/-- `F` is a linear combination of the samples in `S`. -/
def Lin (A : Nat) (S : Finset Nat) (F : Data A → ℂ) : Prop :=
  ∃ K : Nat → ℂ, ∀ l, F l = ∑ i ∈ S, K i * sample l.1 i

theorem Lin.congr {A : Nat} {S : Finset Nat} {F G : Data A → ℂ} (h : Lin A S F)
    (e : ∀ l, G l = F l) : Lin A S G := by
  obtain ⟨K, hK⟩ := h
  exact ⟨K, fun l => by rw [e, hK]⟩

theorem Lin.zero {A : Nat} {S : Finset Nat} : Lin A S (fun _ => 0) :=
  ⟨fun _ => 0, fun l => by simp⟩

theorem Lin.add {A : Nat} {S : Finset Nat} {F G : Data A → ℂ} (h : Lin A S F) (g : Lin A S G) :
    Lin A S (fun l => F l + G l) := by
  obtain ⟨K, hK⟩ := h
  obtain ⟨L, hL⟩ := g
  exact ⟨fun i => K i + L i, fun l => by
    simp only [hK, hL, ← Finset.sum_add_distrib, add_mul]⟩

theorem Lin.smul {A : Nat} {S : Finset Nat} {F : Data A → ℂ} (c : ℂ) (h : Lin A S F) :
    Lin A S (fun l => c * F l) := by
  obtain ⟨K, hK⟩ := h
  exact ⟨fun i => c * K i, fun l => by simp only [hK, Finset.mul_sum, mul_assoc]⟩

theorem linSample {A : Nat} {S : Finset Nat} {i : Nat} (h : i ∈ S) :
    Lin A S (fun l => sample l.1 i) :=
  ⟨fun j => if j = i then 1 else 0, fun l => by simp [h]⟩

theorem Lin.smulAt {A : Nat} {S : Finset Nat} (k : ℂ) {i : Nat} (h : i ∈ S) :
    Lin A S (fun l => k * sample l.1 i) := Lin.smul k (linSample h)

theorem Lin.addAt {A : Nat} {S : Finset Nat} {F : Data A → ℂ} (hF : Lin A S F) (k : ℂ) {i : Nat}
    (h : i ∈ S) : Lin A S (fun l => F l + k * sample l.1 i) := hF.add (Lin.smulAt k h)

theorem Lin.sum {A : Nat} {S : Finset Nat} {m : Nat} {F : Nat → Data A → ℂ}
    (h : ∀ n, n < m → Lin A S (F n)) : Lin A S (fun l => ∑ n ∈ Finset.range m, F n l) := by
  induction m with
  | zero => exact Lin.zero.congr fun _ => by simp
  | succ m ih =>
    exact ((ih fun n hn => h n (by omega)).add (h m (by omega))).congr fun _ => by
      rw [Finset.sum_range_succ]

/-- A family of runs that all succeed with a linear combination of the data. -/
def LinRes (A : Nat) (S : Finset Nat) (F : Data A → Res ℂ) : Prop :=
  ∃ K : Nat → ℂ, ∀ l, F l = .ok (∑ i ∈ S, K i * sample l.1 i)

theorem resLin {A : Nat} {S : Finset Nat} {G : Data A → ℂ} {F : Data A → Res ℂ}
    (e : ∀ l, F l = .ok (G l)) (h : Lin A S G) : LinRes A S F := by
  obtain ⟨K, hK⟩ := h
  exact ⟨K, fun l => by rw [e, hK]⟩

theorem linWindow {A : Nat} (K : Nat → ℂ) (c n : Nat) :
    Lin A (window c n) (fun l => windowSum K l.1 c n) := ⟨K, fun _ => rfl⟩

theorem withData_tIn {t : Tau ℝ ℂ} (l : List ℂ) : (withData t l).carr .tIn = some l := by
  simp [withData, Tau.setC]

theorem wd_dx {t : Tau ℝ ℂ} {l : List ℂ} : (withData t l).dx = t.dx := rfl
theorem wd_norm {t : Tau ℝ ℂ} {l : List ℂ} : (withData t l).useNorm = t.useNorm := rfl
theorem wd_fwd {t : Tau ℝ ℂ} {l : List ℂ} : (withData t l).useFwd = t.useFwd := rfl
theorem wd_order {t : Tau ℝ ℂ} {l : List ℂ} : (withData t l).order = t.order := rfl

theorem flag_cases (t : Tau ℝ ℂ) {P : Prop}
    (h : ∀ {u v : Bool}, t.useNorm = u → t.useFwd = v → P) : P := h rfl rfl

theorem ite_flag {α : Type} (b : Bool) (x y : α) : (if b = true then x else y) = bif b then x else y := by
  cases b <;> rfl

/-- The values of a family of safe computations. -/
theorem exists_values {α : Type} {P : Nat → Prop} {F : Nat → Res α} [Inhabited α]
    (h : ∀ i, P i → (F i).Safe) : ∃ v : Nat → α, ∀ i, P i → F i = .ok (v i) := by
  classical
  refine ⟨fun i => if h' : P i then (h i h').choose else default, fun i hi => ?_⟩
  simp only [hi, dif_pos]
  exact (h i hi).choose_spec

theorem nodePairs_withData {N : Num ℝ ℂ} {t : Tau ℝ ℂ} {l : List ℂ} {c s : Nat} : ∀ cnt j,
    nodePairs N (withData t l) c s j cnt = nodePairs N t c s j cnt := by
  intro cnt
  induction cnt with
  | zero => intro j; rfl
  | succ cnt ih => intro j; rw [nodePairs, nodePairs, ih]; rfl

section
variable {N : Num ℝ ℂ} (hN : N.IsExact) {t : Tau ℝ ℂ} {A : Nat} (h : Ready t A)
include hN h

theorem riemann_lin {w : List ℝ} {q c : Nat} (hw : 2 * q + 1 ≤ w.length) (h1 : q ≤ c)
    (h2 : c + q < A) :
    LinRes A (window c q) (fun l => riemann N (withData t l.1) w (2 * q + 1) c) := by
  obtain ⟨k, hk⟩ := exists_values (P := fun i => i < A) (F := kernel N t c)
    fun i hi => kernel_safe N h (by omega) hi
  have e := fun l : Data A =>
    have := l.2
    riemann_eq hN (withData_tIn l.1) (w := w) (q := q) (c := c) (k := k) (fun i _ _ => hk i (by omega)) (by omega) h1
    (by omega)
  exact flag_cases t (fun hu hv => by
    simp only [wd_dx, wd_norm, wd_fwd, hu, hv, ite_flag] at e
    exact resLin e (Lin.smul _ (Lin.sum (m := 2 * q) fun n hn => Lin.smulAt _ (i := c - q + n)
      (mem_window (by omega) (by omega)))))

theorem elliptical_lin {w : List ℝ} {q c : Nat} (hw : 2 * q + 1 ≤ w.length) (h1 : q ≤ c)
    (h2 : c + q < A) :
    LinRes A (window c q) (fun l => elliptical N (withData t l.1) w (2 * q + 1) c) := by
  obtain ⟨k, hk⟩ := exists_values (P := fun i => i < A) (F := ellPsi N t c)
    fun i hi => ellPsi_safe N h (by omega) hi
  have e := fun l : Data A =>
    have := l.2
    elliptical_eq hN (withData_tIn l.1) (w := w) (q := q) (c := c) (p := k) (fun i _ _ => hk i (by omega)) (by omega) h1 (by omega)
  exact resLin e (Lin.smul _ (linWindow _ c q))

theorem perturbed_lin {w : List ℝ} {q c : Nat} (hw : 2 * q + 1 ≤ w.length) (h1 : q ≤ c)
    (h2 : c + q < A) :
    LinRes A (window c q) (fun l => perturbed N (withData t l.1) w (2 * q + 1) c) := by
  obtain ⟨k, hk⟩ := exists_values (P := fun i => i < A) (F := pertPsi N t c)
    fun i hi => pertPsi_safe N h (by omega) hi
  have e := fun l : Data A =>
    have := l.2
    perturbed_eq hN (withData_tIn l.1) (w := w) (q := q) (c := c) (p := k) (fun i _ _ => hk i (by omega)) (by omega) h1 (by omega)
  exact resLin e (Lin.smul _ (linWindow _ c q))

theorem fresnel_lin {x w : List ℝ} {q c : Nat} (hx : q ≤ x.length) (hw : q ≤ w.length) (h1 : q ≤ c)
    (h2 : c + q < A) :
    LinRes A (window c q) (fun l => fresnel N (withData t l.1) x w q c) := by
  obtain ⟨F, hF⟩ := rdP_safe h (f := .F) (by decide) (i := c) (by omega)
  have e := fun l : Data A =>
    have := l.2
    fresnel_eq hN (t := withData t l.1) (withData_tIn l.1) hF hx hw h1 (by omega) (fun m _ => rfl)
  exact flag_cases t (fun hu hv => by
    simp only [wd_dx, wd_norm, wd_fwd, hu, hv, ite_flag, Bool.or_true, Bool.or_false] at e
    exact resLin e (Lin.smul _ (linWindow _ c q)))

theorem legendre_lin (v : Leg) {x w co : List ℝ} {q c : Nat} (hx : q ≤ x.length) (hw : q ≤ w.length)
    (ho : 2 ≤ t.order) (hc : t.order ≤ co.length) (h1 : q ≤ c) (h2 : c + q < A) :
    LinRes A (window c q) (fun l => legendre N v (withData t l.1) x w co q c) := by
  obtain ⟨F, hF⟩ := rdP_safe h (f := .F) (by decide) (i := c) (by omega)
  obtain ⟨D, hD⟩ := rdP_safe h (f := .D) (by decide) (i := c) (by omega)
  obtain ⟨k, hk⟩ := rdP_safe h (f := .k) (by decide) (i := c) (by omega)
  obtain ⟨p, hp⟩ := exists_values (P := fun _ => True)
    (F := fun m => legPsi N v co t.order (k * D) (val x m * (1 / D)))
    fun i hi => legPsi_safe N v ho hc
  have e := fun l : Data A =>
    have := l.2
    legendre_eq hN (t := withData t l.1) (withData_tIn l.1) v hD hk hF hx hw h1 (by omega) (fun m _ => hp m trivial)
  simp only [wd_dx] at e
  exact resLin e (Lin.smul _ (linWindow _ c q))

theorem newtonInterp_lin (b : Bool) {x w : List ℝ} {q c : Nat} (hx : q ≤ x.length)
    (hw : q ≤ w.length) (h1 : q ≤ c) (h2 : c + q < A) :
    LinRes A (window c q) (fun l => newtonInterp N b (withData t l.1) x w q c) := by
  have hs : (0 + if b then 8 else 4) * (q / if b then 8 else 4) ≤ q := by
    rw [Nat.zero_add]
    exact Nat.mul_div_le q _
  obtain ⟨pairs, hp⟩ := nodePairs_safe N h (c := c) (s := q / if b then 8 else 4)
    (if b then 8 else 4) 0 (by omega) (by omega)
  have hnp : ∀ l : Data A, nodePairs N (withData t l.1) c (q / if b then 8 else 4) 0
      (if b then 8 else 4) = .ok pairs := fun l => by
    rw [nodePairs_withData]; exact hp
  have e := fun l : Data A =>
    have := l.2
    newtonInterp_eq hN (t := withData t l.1) (withData_tIn l.1) (q := q) (c := c) b rfl (hnp l) hx hw h1 (by omega) (fun m _ => rfl)
  exact flag_cases t (fun hu hv => by
    simp only [wd_dx, wd_norm, wd_fwd, hu, hv, ite_flag, Bool.or_true, Bool.or_false] at e
    exact resLin e (Lin.smul _ (linWindow _ c q)))

variable (hf : N.FilonLinear)
include hf

theorem filon1_lin (deg0 : Bool) {w : List ℝ} {q c : Nat} (hw : 2 * q + 1 ≤ w.length) (h1 : q ≤ c)
    (h2 : c + q < A) :
    LinRes A (window c q) (fun l => filon1 N deg0 (withData t l.1) w (2 * q + 1) c) := by
  obtain ⟨pw, hpw⟩ := exists_values (P := fun n => n ≤ 2 * q)
    (F := fun n => phaseWeight N t c (c - q + n) none)
    fun i hi => phaseWeight_safe N h (by omega) (by omega) none
  have hz : ∀ n, n ≤ 2 * q → Lin A (window c q)
      (fun l => scaled w (fun n => (pw n).1) l.1 (c - q) n) :=
    fun n hn => Lin.smulAt _ (i := c - q + n) (mem_window (by omega) (by omega))
  have e := fun l : Data A =>
    have := l.2
    filon1_eq hN (t := withData t l.1) (withData_tIn l.1) deg0 hpw hw h1 (by omega)
      (fun _ _ => rfl) (fun _ _ => rfl)
  have hlin : ∀ n, n < 2 * q → Lin A (window c q) (fun l => if deg0 then
      N.cFilon01 ((scaled w (fun n => (pw n).1) l.1 (c - q) n +
        scaled w (fun n => (pw n).1) l.1 (c - q) (n + 1)) / 2) (pw n).2.1 (pw (n + 1)).2.1 t.dx
      else N.cFilon11 (scaled w (fun n => (pw n).1) l.1 (c - q) n)
        (scaled w (fun n => (pw n).1) l.1 (c - q) (n + 1)) (pw n).2.1 (pw (n + 1)).2.1 t.dx) := by
    intro n hn
    cases deg0
    · refine ((Lin.smul (N.rFilon11 1 0 (pw n).2.1 (pw (n + 1)).2.1 t.dx) (hz n (by omega))).add
        (Lin.smul (N.rFilon11 0 1 (pw n).2.1 (pw (n + 1)).2.1 t.dx) (hz (n + 1) (by omega)))).congr
        fun l => ?_
      simp only [Bool.false_eq_true, if_false]
      rw [hf.f11]; ring
    · refine (Lin.smul (N.rFilon01 1 (pw n).2.1 (pw (n + 1)).2.1 t.dx / 2)
        ((hz n (by omega)).add (hz (n + 1) (by omega)))).congr fun l => ?_
      simp only [if_true]
      rw [hf.f01]; ring
  exact flag_cases t (fun hu hv => by
    simp only [wd_dx, wd_norm, wd_fwd, hu, hv, ite_flag] at e hlin
    exact resLin e (Lin.smul _ (Lin.sum (m := 2 * q) hlin)))

theorem filon2_lin (deg0 : Bool) {w : List ℝ} {q c : Nat} (hq : 0 < q) (hw : 2 * q + 1 ≤ w.length)
    (h1 : q ≤ c) (h2 : c + q < A) :
    LinRes A (window c q) (fun l => filon2 N deg0 (withData t l.1) w (2 * q + 1) c) := by
  obtain ⟨phi, hphi⟩ := rdP_safe h (f := .phi) (by decide) (i := c - q) (by omega)
  have hall : ∀ d, ∃ v : Nat → ℝ × ℝ × ℝ, ∀ n, n ≤ 2 * q →
      phaseWeight N t c (c - q + n) d = .ok (v n) := fun d => exists_values
    fun i hi => phaseWeight_safe N h (by omega) (by omega) d
  choose pwd hpwd using hall
  let pw : Nat → ℝ × ℝ × ℝ := fun n => Nat.rec (pwd (if deg0 then none else some phi) 0)
    (fun n r => pwd (if deg0 then none else some r.2.2) (n + 1)) n
  have hpw : ∀ n, n < 2 * q → phaseWeight N t c (c - q + (n + 1))
      (if deg0 then none else some (pw n).2.2) = .ok (pw (n + 1)) := fun n hn =>
    hpwd (if deg0 then none else some (pw n).2.2) (n + 1) (by omega)
  have hz : ∀ n, n ≤ 2 * q → Lin A (window c q)
      (fun l => scaled w (fun n => (pw n).1) l.1 (c - q) n) :=
    fun n hn => Lin.smulAt _ (i := c - q + n) (mem_window (by omega) (by omega))
  have e := fun l : Data A =>
    have := l.2
    filon2_eq hN (t := withData t l.1) (withData_tIn l.1) (pw := pw) deg0 (Or.inr hphi)
      (hpwd _ 0 (by omega)) (fun n hn => hpw n (by omega)) hq hw h1 (by omega) (fun _ _ => rfl)
  simp only [wd_dx] at e
  refine resLin e (Lin.sum (m := q) ?_)
  · intro m hm
    cases deg0
    · refine (((Lin.smul (N.cFilon12 1 0 0 (pw (2*m)).2.1 (pw (2*m+1)).2.1 (pw (2*m+2)).2.1 t.dx)
        (hz (2*m) (by omega))).add
        (Lin.smul (N.cFilon12 0 1 0 (pw (2*m)).2.1 (pw (2*m+1)).2.1 (pw (2*m+2)).2.1 t.dx)
        (hz (2*m+1) (by omega)))).add
        (Lin.smul (N.cFilon12 0 0 1 (pw (2*m)).2.1 (pw (2*m+1)).2.1 (pw (2*m+2)).2.1 t.dx)
        (hz (2*m+2) (by omega)))).congr fun l => ?_
      simp only [Bool.false_eq_true, if_false]
      rw [hf.f12]; ring
    · refine ((Lin.smul (N.cFilon02 1 0 (pw (2*m)).2.1 (pw (2*m+1)).2.1 (pw (2*m+2)).2.1 t.dx / 2)
        ((hz (2*m) (by omega)).add (hz (2*m+1) (by omega)))).add
        (Lin.smul (N.cFilon02 0 1 (pw (2*m)).2.1 (pw (2*m+1)).2.1 (pw (2*m+2)).2.1 t.dx / 2)
        ((hz (2*m+1) (by omega)).add (hz (2*m+2) (by omega))))).congr fun l => ?_
      simp only [if_true]
      rw [hf.f02]; ring

theorem newton4_lin {x w : List ℝ} {q c : Nat} (hq : 0 < q) (hx : q ≤ x.length) (hw : q ≤ w.length)
    (h1 : q ≤ c) (h2 : c + q < A) :
    LinRes A (window c q) (fun l => newton4 N (withData t l.1) x w q c) := by
  obtain ⟨v, hv⟩ := exists_values (P := fun n => n < A)
    (F := fun n => phaseWeight N t c n none)
    fun i hi => phaseWeight_safe N h (by omega) (by omega) none
  let o := c - 2 * (q / 2)
  let s := q / 2
  obtain ⟨ps, hps⟩ : ∃ ps : Nat → ℝ × ℝ, ∀ n, deg4Eval N (deg4Interp N (v o).2.1 (v (o+s)).2.1
    (v (o+2*s)).2.1 (v (o+3*s)).2.1 (v (o+4*s)).2.1) (val x n * (1 / (4 * t.dx * s))) = ps n :=
    ⟨_, fun _ => rfl⟩
  obtain ⟨as, has⟩ : ∃ ps : Nat → ℝ × ℝ, ∀ n, deg4Eval N (deg4Interp N (v o).1 (v (o+s)).1
    (v (o+2*s)).1 (v (o+3*s)).1 (v (o+4*s)).1) (val x n * (1 / (4 * t.dx * s))) = ps n :=
    ⟨_, fun _ => rfl⟩
  have e := fun l : Data A =>
    have := l.2
    newton4_eq hN (t := withData t l.1) (withData_tIn l.1) rfl rfl (hv o (by omega)) (hv _ (by omega))
      (hv _ (by omega)) (hv _ (by omega)) (hv _ (by omega)) hq hx hw h1 (by omega)
      (fun n _ => hps n) (fun n _ => has n) (fun n _ => rfl) (fun n _ => rfl)
  simp only [wd_dx] at e
  have hL : ∀ n, n < q → ∀ a : ℂ, Lin A (window c q) (fun l => a * sample l.1 (c - (q - n))) :=
    fun n hn a => Lin.smulAt _ (mem_window (by omega) (by omega))
  have hR : ∀ n, n < q → ∀ a : ℂ, Lin A (window c q) (fun l => a * sample l.1 (c + (q - n))) :=
    fun n hn a => Lin.smulAt _ (mem_window (by omega) (by omega))
  have h11 : ∀ {F G : Data A → ℂ} (a b d : ℝ), Lin A (window c q) F → Lin A (window c q) G →
      Lin A (window c q) (fun l => N.cFilon11 (F l) (G l) a b d) := fun a b d hF hG =>
    ((Lin.smul (N.rFilon11 1 0 a b d) hF).add (Lin.smul (N.rFilon11 0 1 a b d) hG)).congr
      fun l => by rw [hf.f11]; ring
  have h12 : ∀ {F G H : Data A → ℂ} (a b c' d : ℝ), Lin A (window c q) F → Lin A (window c q) G →
      Lin A (window c q) H →
      Lin A (window c q) (fun l => N.cFilon12 (F l) (G l) (H l) a b c' d) :=
    fun a b c' d hF hG hH => (((Lin.smul (N.cFilon12 1 0 0 a b c' d) hF).add
      (Lin.smul (N.cFilon12 0 1 0 a b c' d) hG)).add (Lin.smul (N.cFilon12 0 0 1 a b c' d) hH)).congr
      fun l => by rw [hf.f12]; ring
  exact resLin e ((Lin.sum (m := q - 1) fun n hn =>
        (h11 _ _ _ (hL n (by omega) _) (hL (n + 1) (by omega) _)).add
        (h11 _ _ _ (hR (n + 1) (by omega) _) (hR n (by omega) _))).add
      (h12 _ _ _ _ (hL (q - 1) (by omega) _)
        (Lin.smulAt _ (i := c) (mem_window (by omega) (by omega))) (hR (q - 1) (by omega) _)))

/-- All transforms. -/
theorem runXf_lin {f : Xf} {x w co : List ℝ} {nw c q : Nat} (hfit : Fits f t x w co nw c A q) :
    LinRes A (window c q) (fun l => runXf N f (withData t l.1) x w co nw c) := by
  obtain ⟨h1, h2, hw, hs⟩ := hfit
  cases f with
  | riemann => obtain rfl := hs; exact riemann_lin hN h hw h1 h2
  | filon01 => obtain rfl := hs; exact filon1_lin hN h hf true hw h1 h2
  | filon11 => obtain rfl := hs; exact filon1_lin hN h hf false hw h1 h2
  | filon02 => obtain ⟨rfl, hq⟩ := hs; exact filon2_lin hN h hf true hq hw h1 h2
  | filon12 => obtain ⟨rfl, hq⟩ := hs; exact filon2_lin hN h hf false hq hw h1 h2
  | elliptical => obtain rfl := hs; exact elliptical_lin hN h hw h1 h2
  | perturbed => obtain rfl := hs; exact perturbed_lin hN h hw h1 h2
  | newton4 => obtain ⟨rfl, hx, hq⟩ := hs; exact newton4_lin hN h hf hq hx hw h1 h2
  | newton8 => obtain ⟨rfl, hx⟩ := hs; exact newtonInterp_lin hN h false hx hw h1 h2
  | newton16 => obtain ⟨rfl, hx⟩ := hs; exact newtonInterp_lin hN h true hx hw h1 h2
  | fresnel => obtain ⟨rfl, hx⟩ := hs; exact fresnel_lin hN h hx hw h1 h2
  | leg v => obtain ⟨rfl, hx, ho, hc⟩ := hs; exact legendre_lin hN h v hx hw ho hc h1 h2

end
end Verif
