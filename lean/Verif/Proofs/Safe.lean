import Verif.Proofs.Loop
import Verif.Model.Transform
import Verif.Spec.Ready

/-! Index safety of the transforms. -/
namespace Verif
open Spec
variable {R C : Type}

theorem Res.Safe.bind {α β : Type} {x : Res α} {f : α → Res β} (h : x.Safe)
    (hf : ∀ a, x = .ok a → (f a).Safe) : (x >>= f).Safe := by
  obtain ⟨a, rfl⟩ := h
  exact hf a rfl

theorem forRange_safe {σ : Type} {body : Nat → σ → Res σ} {cnt lo : Nat} {s : σ}
    (h : ∀ i s, lo ≤ i → i < lo + cnt → (body i s).Safe) : (forRange lo cnt body s).Safe := by
  obtain ⟨s', e, -⟩ := forRange_total (fun _ _ => True) body cnt lo s trivial
    (fun i s a b _ => by obtain ⟨s', e⟩ := h i s a b; exact ⟨s', e, trivial⟩)
  exact ⟨s', e⟩

theorem rd_safe {α : Type} {l : List α} {i : Nat} (h : i < l.length) : (rd l i).Safe :=
  ⟨_, rd_lt h⟩

theorem subIdx_safe {a b : Nat} (h : b ≤ a) : (subIdx a b).Safe := ⟨a - b, by simp [subIdx, h]⟩
theorem subIdx_ok {a b c : Nat} (h : subIdx a b = .ok c) : b ≤ a ∧ c = a - b := by
  unfold subIdx at h
  split at h
  · cases h; exact ⟨by assumption, rfl⟩
  · cases h

theorem rdP_safe {t : Tau R C} {A : Nat} (h : Ready t A) {f : Fld} (hf : f ∈ xfFields) {i : Nat}
    (hi : i < A) : (rdP (t.arr f) i).Safe := by
  obtain ⟨l, e, hl⟩ := h.arr f hf
  rw [e]; exact rd_safe (by omega)

theorem rdT_safe {t : Tau R C} {A : Nat} (h : Ready t A) {i : Nat}
    (hi : i < A) : (rdP (t.carr .tIn) i).Safe := by
  obtain ⟨l, e, hl⟩ := h.tIn
  rw [e]; exact rd_safe (by omega)

/-- Steps through a `do` block of safe reads. -/
macro "safe_step" : tactic =>
  `(tactic| first
    | exact ⟨_, rfl⟩
    | (refine Res.Safe.bind (rdP_safe (by assumption) (by decide) (by omega)) (fun _ _ => ?_))
    | (refine Res.Safe.bind (rdT_safe (by assumption) (by omega)) (fun _ _ => ?_))
    | (refine Res.Safe.bind (rd_safe (by omega)) (fun _ _ => ?_)))

macro "safe_steps" : tactic => `(tactic| repeat' safe_step)

theorem kernelGeo_safe {t : Tau R C} {A : Nat} (h : Ready t A) {c o : Nat} (hc : c < A) (ho : o < A)
    (d : Option R) : (kernelGeo t c o d).Safe := by
  unfold kernelGeo
  have h0 : (if t.useFwd then c else o) < A := by split <;> assumption
  have h1 : (if t.useFwd then o else c) < A := by split <;> assumption
  safe_steps

theorem kernel_safe (N : Num R C) {t : Tau R C} {A : Nat} (h : Ready t A) {c o : Nat} (hc : c < A)
    (ho : o < A) : (kernel N t c o).Safe :=
  (kernelGeo_safe h hc ho none).bind fun _ _ => ⟨_, rfl⟩

theorem phaseWeight_safe (N : Num R C) {t : Tau R C} {A : Nat} (h : Ready t A) {c o : Nat}
    (hc : c < A) (ho : o < A) (d : Option R) : (phaseWeight N t c o d).Safe :=
  (kernelGeo_safe h hc ho d).bind fun _ _ => ⟨_, rfl⟩

theorem filonPoint_safe (N : Num R C) {t : Tau R C} {A : Nat} (h : Ready t A) {w : List R}
    {c o n : Nat} (hc : c < A) (ho : o < A) (hn : n < w.length) (d : Option R) :
    (filonPoint N t w c o n d).Safe := by
  refine (phaseWeight_safe N h hc ho d).bind fun _ _ => ?_
  safe_steps

/-- Riemann sums: the window may even have one point less. -/
theorem riemann_safe (N : Num R C) {t : Tau R C} {A : Nat} (h : Ready t A) {w : List R}
    {q c : Nat} (hw : 2 * q + 1 ≤ w.length) (h1 : q ≤ c) (h2 : c + q < A) :
    (riemann N t w (2 * q + 1) c).Safe := by
  unfold riemann
  refine (subIdx_safe (by omega)).bind fun off e => ?_
  obtain ⟨-, rfl⟩ := subIdx_ok e
  refine (subIdx_safe (by omega)).bind fun cnt e => ?_
  obtain ⟨-, rfl⟩ := subIdx_ok e
  refine (forRange_safe fun n s _ hn => ?_).bind fun _ _ => ⟨_, rfl⟩
  refine (kernel_safe N h (by omega) (by omega)).bind fun _ _ => ?_
  safe_steps

theorem filon1_safe (N : Num R C) (b : Bool) {t : Tau R C} {A : Nat} (h : Ready t A) {w : List R}
    {q c : Nat} (hw : 2 * q + 1 ≤ w.length) (h1 : q ≤ c) (h2 : c + q < A) :
    (filon1 N b t w (2 * q + 1) c).Safe := by
  unfold filon1
  refine (subIdx_safe (by omega)).bind fun off e => ?_
  obtain ⟨-, rfl⟩ := subIdx_ok e
  refine (filonPoint_safe N h (by omega) (by omega) (by omega) _).bind fun _ _ => ?_
  refine (subIdx_safe (by omega)).bind fun cnt e => ?_
  obtain ⟨-, rfl⟩ := subIdx_ok e
  refine (forRange_safe fun n s _ hn => ?_).bind fun _ _ => ⟨_, rfl⟩
  exact (filonPoint_safe N h (by omega) (by omega) (by omega) _).bind fun _ _ => ⟨_, rfl⟩

/-- The quadratic Filon functions need at least three points. -/
theorem filon2_safe (N : Num R C) (b : Bool) {t : Tau R C} {A : Nat} (h : Ready t A) {w : List R}
    {q c : Nat} (hq : 0 < q) (hw : 2 * q + 1 ≤ w.length) (h1 : q ≤ c) (h2 : c + q < A) :
    (filon2 N b t w (2 * q + 1) c).Safe := by
  unfold filon2
  refine (subIdx_safe (by omega)).bind fun off e => ?_
  obtain ⟨-, rfl⟩ := subIdx_ok e
  refine Res.Safe.bind ?_ fun phi _ => ?_
  · split
    · exact ⟨_, rfl⟩
    · exact rdP_safe h (by decide) (by omega)
  refine (filonPoint_safe N h (by omega) (by omega) (by omega) _).bind fun _ _ => ?_
  refine (subIdx_safe (by omega)).bind fun cnt e => ?_
  obtain ⟨-, rfl⟩ := subIdx_ok e
  refine (forRange_safe fun n s _ hn => ?_).bind fun _ _ => ⟨_, rfl⟩
  refine (filonPoint_safe N h (by omega) (by omega) (by omega) _).bind fun _ _ => ?_
  exact (filonPoint_safe N h (by omega) (by omega) (by omega) _).bind fun _ _ => ⟨_, rfl⟩

theorem ellPsi_safe (N : Num R C) {t : Tau R C} {A : Nat} (h : Ready t A) {c o : Nat}
    (hc : c < A) (ho : o < A) : (ellPsi N t c o).Safe := by
  unfold ellPsi
  safe_steps

theorem pertPsi_safe (N : Num R C) {t : Tau R C} {A : Nat} (h : Ready t A) {c o : Nat}
    (hc : c < A) (ho : o < A) : (pertPsi N t c o).Safe := by
  have := h.perturb
  unfold pertPsi
  safe_steps

theorem elliptical_safe (N : Num R C) {t : Tau R C} {A : Nat} (h : Ready t A) {w : List R}
    {q c : Nat} (hw : 2 * q + 1 ≤ w.length) (h1 : q ≤ c) (h2 : c + q < A) :
    (elliptical N t w (2 * q + 1) c).Safe := by
  unfold elliptical
  refine (subIdx_safe (by omega)).bind fun off e => ?_
  obtain ⟨-, rfl⟩ := subIdx_ok e
  refine (forRange_safe fun n s _ hn => ?_).bind fun _ _ => ⟨_, rfl⟩
  refine (ellPsi_safe N h (by omega) (by omega)).bind fun _ _ => ?_
  safe_steps

theorem perturbed_safe (N : Num R C) {t : Tau R C} {A : Nat} (h : Ready t A) {w : List R}
    {q c : Nat} (hw : 2 * q + 1 ≤ w.length) (h1 : q ≤ c) (h2 : c + q < A) :
    (perturbed N t w (2 * q + 1) c).Safe := by
  unfold perturbed
  refine (subIdx_safe (by omega)).bind fun off e => ?_
  obtain ⟨-, rfl⟩ := subIdx_ok e
  refine (forRange_safe fun n s _ hn => ?_).bind fun _ _ => ⟨_, rfl⟩
  refine (pertPsi_safe N h (by omega) (by omega)).bind fun _ _ => ?_
  safe_steps

theorem fresnel_safe (N : Num R C) {t : Tau R C} {A : Nat} (h : Ready t A) {x w : List R}
    {q c : Nat} (hx : q ≤ x.length) (hw : q ≤ w.length) (h1 : q ≤ c) (h2 : c + q < A) :
    (fresnel N t x w q c).Safe := by
  unfold fresnel
  refine (rdP_safe h (by decide) (by omega)).bind fun _ _ => ?_
  refine (rdT_safe h (by omega)).bind fun _ _ => ?_
  refine (forRange_safe fun n s _ hn => ?_).bind fun _ _ => ⟨_, rfl⟩
  unfold fresnelStep
  refine (rd_safe (by omega)).bind fun _ _ => ?_
  refine (rd_safe (by omega)).bind fun _ _ => ?_
  refine (subIdx_safe (by omega)).bind fun li e => ?_
  obtain ⟨-, rfl⟩ := subIdx_ok e
  safe_steps

theorem horner_safe (N : Num R C) {c : List R} {order bound : Nat} {x2 : R} (ho : 2 ≤ order)
    (hc : order ≤ c.length) (hb : bound ≤ order) : (horner N c order bound x2).Safe := by
  unfold horner
  refine (subIdx_safe (by omega)).bind fun i1 e => ?_
  obtain ⟨-, rfl⟩ := subIdx_ok e
  refine (rd_safe (by omega)).bind fun _ _ => ?_
  refine (subIdx_safe (by omega)).bind fun i2 e => ?_
  obtain ⟨-, rfl⟩ := subIdx_ok e
  refine (rd_safe (by omega)).bind fun _ _ => ?_
  refine forRange_safe fun j s _ hj => ?_
  unfold hornerPasses at hj
  unfold hornerStep
  refine (subIdx_safe (by omega)).bind fun i1 e => ?_
  obtain ⟨-, rfl⟩ := subIdx_ok e
  refine (rd_safe (by omega)).bind fun _ _ => ?_
  refine (subIdx_safe (by omega)).bind fun i2 e => ?_
  obtain ⟨-, rfl⟩ := subIdx_ok e
  safe_steps

theorem legPsi_safe (N : Num R C) (v : Leg) {c : List R} {order : Nat} {kD x : R} (ho : 2 ≤ order)
    (hc : order ≤ c.length) : (legPsi N v c order kD x).Safe := by
  unfold legPsi
  cases v
  all_goals
    simp only [legOddPsi, legEvenPsi]
    refine (horner_safe N ho hc (by omega)).bind fun _ _ => ?_
    safe_steps

theorem legendre_safe (N : Num R C) (v : Leg) {t : Tau R C} {A : Nat} (h : Ready t A)
    {x w c : List R} {q m : Nat} (hx : q ≤ x.length) (hw : q ≤ w.length) (ho : 2 ≤ t.order)
    (hc : t.order ≤ c.length) (h1 : q ≤ m) (h2 : m + q < A) :
    (legendre N v t x w c q m).Safe := by
  unfold legendre
  refine (rdP_safe h (by decide) (by omega)).bind fun _ _ => ?_
  refine (rdP_safe h (by decide) (by omega)).bind fun _ _ => ?_
  refine Res.Safe.bind ?_ fun factor _ => ?_
  · cases v <;> simp only <;> safe_steps
  refine (forRange_safe fun n s _ hn => ?_).bind fun _ _ => ?_
  · unfold legStep
    refine (rd_safe (by omega)).bind fun _ _ => ?_
    refine (legPsi_safe N v ho hc).bind fun _ _ => ?_
    refine (rd_safe (by omega)).bind fun _ _ => ?_
    refine (subIdx_safe (by omega)).bind fun li e => ?_
    obtain ⟨-, rfl⟩ := subIdx_ok e
    safe_steps
  · refine (rdT_safe h (by omega)).bind fun _ _ => ?_
    cases v <;> exact ⟨_, rfl⟩

theorem n4Point_safe (N : Num R C) {t : Tau R C} {A : Nat} (h : Ready t A) {x w : List R}
    {pc wc : R × R × R × R × R} {rw : R} {q c n : Nat} (hx : n < x.length) (hw : n < w.length)
    (hn : n ≤ q) (h1 : q ≤ c) (h2 : c + q < A) : (n4Point N t x w pc wc rw q c n).Safe := by
  unfold n4Point
  refine (rd_safe hx).bind fun _ _ => ?_
  refine (rd_safe hw).bind fun _ _ => ?_
  refine (subIdx_safe (by omega)).bind fun li e => ?_
  obtain ⟨-, rfl⟩ := subIdx_ok e
  refine (rdT_safe h (by omega)).bind fun _ _ => ?_
  refine (subIdx_safe (by omega)).bind fun li e => ?_
  obtain ⟨-, rfl⟩ := subIdx_ok e
  safe_steps

/-- Newton4 reads the first window point even if the window is empty. -/
theorem newton4_safe (N : Num R C) {t : Tau R C} {A : Nat} (h : Ready t A) {x w : List R}
    {q c : Nat} (hq : 0 < q) (hx : q ≤ x.length) (hw : q ≤ w.length) (h1 : q ≤ c)
    (h2 : c + q < A) : (newton4 N t x w q c).Safe := by
  unfold newton4
  refine (subIdx_safe (by omega)).bind fun o e => ?_
  obtain ⟨-, rfl⟩ := subIdx_ok e
  refine (phaseWeight_safe N h (by omega) (by omega) _).bind fun _ _ => ?_
  refine (phaseWeight_safe N h (by omega) (by omega) _).bind fun _ _ => ?_
  refine (phaseWeight_safe N h (by omega) (by omega) _).bind fun _ _ => ?_
  refine (phaseWeight_safe N h (by omega) (by omega) _).bind fun _ _ => ?_
  refine (phaseWeight_safe N h (by omega) (by omega) _).bind fun _ _ => ?_
  refine (rdT_safe h (by omega)).bind fun _ _ => ?_
  refine (n4Point_safe N h (by omega) (by omega) (by omega) h1 h2).bind fun _ _ => ?_
  refine (forRange_safe fun n s hn1 hn => ?_).bind fun _ _ => ⟨_, rfl⟩
  exact (n4Point_safe N h (by omega) (by omega) (by omega) h1 h2).bind fun _ _ => ⟨_, rfl⟩

theorem nodePairs_safe (N : Num R C) {t : Tau R C} {A : Nat} (h : Ready t A) {c s : Nat} :
    ∀ (cnt j : Nat), (j + cnt) * s ≤ c → c + (j + cnt) * s < A →
      (nodePairs N t c s j cnt).Safe := by
  intro cnt
  induction cnt with
  | zero => intro j _ _; exact ⟨_, rfl⟩
  | succ cnt ih =>
    intro j h1 h2
    have hle : (j + 1) * s ≤ (j + (cnt + 1)) * s := Nat.mul_le_mul_right s (by omega)
    have heq : (j + 1 + cnt) * s = (j + (cnt + 1)) * s := by congr 1; omega
    have hnode : ∀ i, i < A → (nodePsi N t c i).Safe := by
      intro i hi
      unfold nodePsi
      safe_steps
    unfold nodePairs
    refine (subIdx_safe (by omega)).bind fun li e => ?_
    obtain ⟨-, rfl⟩ := subIdx_ok e
    refine (hnode _ (by omega)).bind fun _ _ => ?_
    refine (hnode _ (by omega)).bind fun _ _ => ?_
    exact (ih (j + 1) (by omega) (by omega)).bind fun _ _ => ⟨_, rfl⟩

theorem newtonInterp_safe (N : Num R C) (b : Bool) {t : Tau R C} {A : Nat} (h : Ready t A)
    {x w : List R} {q c : Nat} (hx : q ≤ x.length) (hw : q ≤ w.length) (h1 : q ≤ c)
    (h2 : c + q < A) : (newtonInterp N b t x w q c).Safe := by
  unfold newtonInterp
  have hs : (0 + if b then 8 else 4) * (q / if b then 8 else 4) ≤ q := by
    rw [Nat.zero_add]
    exact Nat.mul_div_le q _
  refine (rdT_safe h (by omega)).bind fun _ _ => ?_
  refine (nodePairs_safe N h _ 0 (by omega) (by omega)).bind fun _ _ => ?_
  refine (forRange_safe fun n s _ hn => ?_).bind fun _ _ => ⟨_, rfl⟩
  unfold interpStep
  refine (rd_safe (by omega)).bind fun _ _ => ?_
  refine (rd_safe (by omega)).bind fun _ _ => ?_
  refine (subIdx_safe (by omega)).bind fun li e => ?_
  obtain ⟨-, rfl⟩ := subIdx_ok e
  refine (rdT_safe h (by omega)).bind fun _ _ => ?_
  refine (subIdx_safe (by omega)).bind fun li e => ?_
  obtain ⟨-, rfl⟩ := subIdx_ok e
  safe_steps

end Verif
