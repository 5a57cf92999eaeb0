import Verif.Props.C34
import Verif.Proofs.Safe
import Verif.Spec.Ready
import Mathlib.Algebra.Order.Floor.Semiring

/-!
# C33: the drivers hand in-bounds windows to the transforms
-/
namespace Verif
open Spec

/-- Number of samples in half a window of width `ω`. -/
def halfPts (δ ω : ℚ) : Nat := ⌊ω / (2 * δ)⌋₊

theorem toSize_floor {x : ℚ} (h0 : 0 ≤ x) (h1 : x < 2 ^ 64) : (Dbl.fin x).toSize = .ok ⌊x⌋₊ := by
  have h2 : x < 18446744073709551616 := by norm_num at h1 ⊢; exact h1
  simp only [Dbl.toSize]
  rw [if_pos ⟨by linarith, h2⟩]
  rfl

/-- Exact arithmetic including the absolute value. -/
structure Num.ExactAbs (N : Num Dbl Cpx) : Prop extends N.ExactOps where
  abs : ∀ a, N.abs (.fin a) = .fin |a|

theorem exactNum_exactAbs : exactNum.ExactAbs where
  toExactOps := exactNum_exact
  abs := fun a => by
    show Dbl.abs (.fin a) = _
    simp [Dbl.abs]

namespace Spec.EvenData
variable {t : TauD} {r0 δ : ℚ} {ω : Nat → ℚ} {lo hi : Nat}

theorem le_left (d : EvenData t r0 δ ω lo hi) {i : Nat} (h1 : lo ≤ i) (h2 : i < hi) :
    ω i / (2 * δ) ≤ i := by
  have := d.left i h1 h2
  have hp := d.pos
  rw [div_le_iff₀ (by linarith)]
  linarith

theorem le_right (d : EvenData t r0 δ ω lo hi) {i : Nat} (h1 : lo ≤ i) (h2 : i < hi) :
    ω i / (2 * δ) ≤ (t.arrSize : ℚ) - 1 - i := by
  have := d.right i h1 h2
  have hp := d.pos
  rw [div_le_iff₀ (by linarith)]
  linarith

theorem ge_one (d : EvenData t r0 δ ω lo hi) {i : Nat} (h1 : lo ≤ i) (h2 : i < hi) :
    1 ≤ ω i / (2 * δ) := by
  have := d.wide i h1 h2
  have hp := d.pos
  rw [le_div_iff₀ (by linarith)]
  linarith

theorem halfPts_pos (d : EvenData t r0 δ ω lo hi) {i : Nat} (h1 : lo ≤ i) (h2 : i < hi) :
    0 < halfPts δ (ω i) := by
  unfold halfPts
  rw [Nat.floor_pos]
  exact d.ge_one h1 h2

theorem row_le (d : EvenData t r0 δ ω lo hi) {i : Nat} (h1 : lo ≤ i) (h2 : i < hi) :
    i + 2 ≤ t.arrSize := by
  have h := d.le_right h1 h2
  have := d.ge_one h1 h2
  have : ((i + 2 : Nat) : ℚ) ≤ t.arrSize := by push_cast; linarith
  exact_mod_cast this

/-- The machine computes `halfPts`. -/
theorem toSize (d : EvenData t r0 δ ω lo hi) {N : Num Dbl Cpx} (hN : N.ExactAbs) {i : Nat}
    (h1 : lo ≤ i) (h2 : i < hi) :
    (N.div (.fin (ω i)) (.fin (2 * δ))).toSize = .ok (halfPts δ (ω i)) := by
  have hp := d.pos
  rw [hN.div _ _ (by linarith)]
  have a := d.ge_one h1 h2
  have b := d.le_left h1 h2
  have c := d.row_le h1 h2
  have hs := d.size
  refine toSize_floor (by linarith) (lt_of_le_of_lt b ?_)
  have : i < 2 ^ 64 := by omega
  exact_mod_cast this

/-- A window kept from row `c0` still fits at row `i` if the widths are close. -/
theorem stale (d : EvenData t r0 δ ω lo hi) {c0 i : Nat} (h1 : lo ≤ i) (h2 : i < hi)
    (h : ω c0 - ω i < 2 * δ) :
    halfPts δ (ω c0) ≤ i ∧ i + halfPts δ (ω c0) < t.arrSize := by
  have hp := d.pos
  have a := d.le_left h1 h2
  have b := d.le_right h1 h2
  have hlt : ω c0 / (2 * δ) < ω i / (2 * δ) + 1 := by
    rw [← sub_lt_iff_lt_add', ← sub_div, div_lt_one (by linarith)]
    exact h
  have hc := d.row_le h1 h2
  constructor
  · unfold halfPts
    rw [← Nat.lt_succ_iff, Nat.succ_eq_add_one, Nat.floor_lt' (by omega)]
    push_cast
    linarith
  · have : halfPts δ (ω c0) < t.arrSize - i := by
      unfold halfPts
      rw [Nat.floor_lt' (by omega), Nat.cast_sub (by omega)]
      linarith
    omega

theorem mono (d : EvenData t r0 δ ω lo hi) {x y : ℚ} (h : x ≤ y) : halfPts δ x ≤ halfPts δ y := by
  have hp := d.pos
  exact Nat.floor_mono (div_le_div_of_nonneg_right h (by linarith))

theorem rdW (d : EvenData t r0 δ ω lo hi) {i : Nat} (h1 : lo ≤ i) (h2 : i < hi) :
    rdP (t.arr .w) i = .ok (.fin (ω i)) := by
  obtain ⟨l, e, hl⟩ := d.w
  exact rdP_eq_ok.2 ⟨l, e, hl i h1 h2⟩

theorem rdRho (d : EvenData t r0 δ ω lo hi) {j : Nat} (h : j < t.arrSize) :
    rdP (t.arr .rho) j = .ok (.fin (r0 + δ * j)) := by
  obtain ⟨l, e, -, hl⟩ := d.rho
  exact rdP_eq_ok.2 ⟨l, e, hl j h⟩

theorem ge_false (d : EvenData t r0 δ ω lo hi) {N : Num Dbl Cpx} (hN : N.ExactAbs) {a b : ℚ}
    (h : (N.abs (N.sub (.fin a) (.fin b))).ge (.fin (2 * δ)) = false) : a - b < 2 * δ := by
  have hp := d.pos
  rw [hN.sub, hN.abs] at h
  simp [Dbl.ge, Dbl.le, Dbl.lt, Dbl.eq] at h
  have : |a - b| < 2 * δ := lt_of_le_of_ne h.1 (Ne.symm h.2)
  exact lt_of_abs_lt this

end Spec.EvenData

/-- **C33** without rounding, for evenly sampled data: a window computed for a width less
than two samples away from the row's own one lies inside the arrays, provided the row's own
window does. -/
theorem C33_stale_fits (N : Num Dbl Cpx) (hN : N.ExactAbs) (t : TauD) (r0 δ : ℚ) (ω : Nat → ℚ)
    (d : EvenData t r0 δ ω t.start (t.start + t.nUsed)) (c0 i q : Nat) (hi : InRange t i)
    (hc : InRange t c0) (w0 wi : Dbl) (hn : NearWidth N t (.fin (2 * δ)) c0 i w0 wi)
    (hq : (N.div w0 (.fin (2 * δ))).toSize = .ok q) :
    q ≤ i ∧ i + q < t.arrSize := by
  obtain ⟨ws, hw, h0, h1, hn⟩ := hn
  obtain ⟨l, e, hl⟩ := d.w
  rw [hw] at e; cases e
  rw [hl c0 hc.1 hc.2] at h0; cases h0
  rw [hl i hi.1 hi.2] at h1; cases h1
  rw [d.toSize hN hc.1 hc.2] at hq; cases hq
  refine d.stale hi.1 hi.2 ?_
  rcases hn with h | h
  · exact d.ge_false hN h
  · injection h with h
    have := d.pos
    rw [h]; linarith

/-! ### Memory safety of the drivers -/

theorem dataRangeLoop_safe {N : Num Dbl Cpx} (hN : N.ExactAbs) {t : TauD} {r0 δ : ℚ} {ω : Nat → ℚ}
    {lo hi : Nat} (d : EvenData t r0 δ ω lo hi) : ∀ (cnt n : Nat), lo ≤ n → n + cnt ≤ hi →
      (dataRangeLoop N t (N.div (N.lit (1/2)) t.dx) n cnt).Safe := by
  intro cnt
  induction cnt with
  | zero => intro n _ _; exact ⟨_, rfl⟩
  | succ cnt ih =>
    intro n h1 h2
    have hp := d.pos
    rw [dataRangeLoop, d.rdW h1 (by omega), Res.ok_bind, d.dx, hN.lit, hN.div _ _ hp.ne', hN.mul]
    have e : ω n * (1 / 2 / δ) = ω n / (2 * δ) := by field_simp
    have a := d.ge_one h1 (i := n) (by omega)
    have b := d.le_left h1 (i := n) (by omega)
    have c := d.row_le h1 (i := n) (by omega)
    have hs := d.size
    have hlt : ω n / (2 * δ) < 2 ^ 64 := by
      refine lt_of_le_of_lt b ?_
      have : n < 2 ^ 64 := by omega
      exact_mod_cast this
    rw [e, toSize_floor (by linarith) hlt, Res.ok_bind]
    split
    · exact ⟨_, rfl⟩
    split
    · exact ⟨_, rfl⟩
    have := ih (n + 1) (by omega) (by omega)
    rw [d.dx, hN.lit, hN.div _ _ hp.ne'] at this
    exact this

theorem withChecks_safe {N : Num Dbl Cpx} (hN : N.ExactAbs) {t : TauD} (h : t.err = none) {r0 δ : ℚ}
    {ω : Nat → ℚ} {hi : Nat} (d : EvenData t r0 δ ω t.start hi) (hhi : t.start + t.nUsed ≤ hi)
    {body : TauD → Res TauD} (hb : (body t).Safe) : (withChecks N body t).Safe := by
  rw [withChecks]
  rcases checkCoreData_cases h with ⟨-, e⟩ | ⟨-, l, e⟩
  · rw [e, Res.ok_bind]
    have hd : (checkDataRange N t).Safe := by
      rw [checkDataRange, guarded_none _ h]
      split
      · exact ⟨_, rfl⟩
      split
      · exact ⟨_, rfl⟩
      refine (dataRangeLoop_safe hN d _ _ (le_refl _) hhi).bind fun r _ => ?_
      cases r <;> exact ⟨_, rfl⟩
    refine hd.bind fun u e => ?_
    rcases checkDataRange_cases N h e with ⟨l, rfl⟩ | ⟨rfl, -⟩
    · rw [guarded_err _ (by simp)]; exact ⟨_, rfl⟩
    · rw [guarded_none _ h]; exact hb
  · rw [e, Res.ok_bind, checkDataRange, guarded_err _ (by simp), Res.ok_bind,
      guarded_err _ (by simp)]
    exact ⟨_, rfl⟩

/-- `x` is `t` up to the contents of `T_out`. -/
def OutOf (t x : TauD) : Prop :=
  ∃ l m, t.carr .tOut = some l ∧ x = t.setC .tOut (some m) ∧ m.length = l.length

theorem OutOf.store {t x : TauD} (h : OutOf t x) {A i : Nat} {v : Cpx}
    (hA : ∃ l, t.carr .tOut = some l ∧ A ≤ l.length) (hi : i < A) :
    ∃ y, storeOut i v x = .ok y ∧ OutOf t y := by
  obtain ⟨l, m, e, rfl, hm⟩ := h
  obtain ⟨l', e', hl⟩ := hA
  rw [e] at e'; cases e'
  refine ⟨t.setC .tOut (some (m.set i v)), ?_, l, m.set i v, e, rfl, by simpa using hm⟩
  rw [storeOut, setC_carr]
  simp only [wr_lt (show i < m.length by omega), Res.ok_bind, setC_setC]

theorem OutOf.refl {t : TauD} {A : Nat} (hA : ∃ l, t.carr .tOut = some l ∧ A ≤ l.length) :
    OutOf t t := by
  obtain ⟨l, e, -⟩ := hA
  exact ⟨l, l, e, by rw [← e, setC_self], rfl⟩

theorem runThreads_safe {thread : Nat × Nat → TauD → Res TauD} {t : TauD} :
    ∀ (cs : List (Nat × Nat)), (∀ c ∈ cs, ∀ x, OutOf t x → ∃ y, thread c x = .ok y ∧ OutOf t y) →
      ∀ x, OutOf t x → (runThreads thread cs x).Safe := by
  intro cs
  induction cs with
  | nil => intro _ x _; exact ⟨_, rfl⟩
  | cons c cs ih =>
    intro hT x hx
    obtain ⟨y, e, hy⟩ := hT c (by simp) x hx
    rw [runThreads, e, Res.ok_bind]
    exact ih (fun c hc => hT c (by simp [hc])) y hy

theorem computeWindow_total {N : Num Dbl Cpx} {t : TauD} {r0 δ : ℚ} {ω : Nat → ℚ}
    {lo hi : Nat} (d : EvenData t r0 δ ω lo hi) {c q : Nat} {buf : List Dbl} (h1 : lo ≤ c)
    (h2 : c < hi) (h3 : q ≤ c) (h4 : c + q < t.arrSize) (hb : 2 * q + 1 ≤ buf.length) :
    ∃ b, computeWindow N t buf (2 * q + 1) c = .ok b ∧ b.length = buf.length := by
  unfold computeWindow
  rw [show subIdx c ((2 * q + 1) / 2) = .ok (c - q) by
    rw [subIdx, if_pos (by omega)]; congr 1; omega, Res.ok_bind]
  obtain ⟨b, e, hl⟩ := forRange_total (fun (_ : Nat) (b : List Dbl) => b.length = buf.length)
    (computeWindowLoop N t (c - q) c) (2 * q + 1) 0 buf rfl (fun n b _ hn hl => by
      rw [computeWindowLoop, d.rdRho (by omega), Res.ok_bind, d.rdRho (by omega), Res.ok_bind,
        d.rdW h1 h2, Res.ok_bind, wr_lt (by omega)]
      exact ⟨_, rfl, by simpa using hl⟩)
  exact ⟨b, e, hl⟩

theorem Spec.Ready.setC {t : TauD} {A : Nat} (h : Ready t A) (l) : Ready (t.setC .tOut l) A where
  arr := h.arr
  tIn := by
    obtain ⟨m, e, hm⟩ := h.tIn
    exact ⟨m, by rw [setC_carr_ne _ _ (by decide)]; exact e, hm⟩
  perturb := h.perturb

theorem transformOf_safe (N : Num Dbl Cpx) {p : Psi} {f : Xf} (hf : transformOf p = some f)
    {t : TauD} {A : Nat} (h : Ready t A) {w : List Dbl} {q c : Nat} (hq : 0 < q)
    (hw : 2 * q + 1 ≤ w.length) (h1 : q ≤ c) (h2 : c + q < A) :
    (runXf N f t [] w [] (2 * q + 1) c).Safe := by
  cases p <;> simp [transformOf] at hf <;> subst hf <;> unfold runXf <;> simp only
  · exact riemann_safe N h hw h1 h2
  · exact filon1_safe N _ h hw h1 h2
  · exact filon1_safe N _ h hw h1 h2
  · exact filon2_safe N _ h hq hw h1 h2
  · exact filon2_safe N _ h hq hw h1 h2
  · exact elliptical_safe N h hw h1 h2
  · exact perturbed_safe N h hw h1 h2

/-- The largest width of the processed rows. -/
theorem maxWidth {L : Lib} (hL : L.Lawful) {t : TauD} {r0 δ : ℚ} {ω : Nat → ℚ} {hi : Nat}
    (d : EvenData t r0 δ ω t.start hi) (hhi : t.start + t.nUsed ≤ hi) (hn : 0 < t.nUsed) :
    ∃ ws m, rdSlice (t.arr .w) t.start t.nUsed = .ok ws ∧ InRange t m ∧
      L.arrMax ws = .fin (ω m) ∧ ∀ i, InRange t i → ω i ≤ ω m := by
  obtain ⟨l, e, hl⟩ := d.w
  have hlen : t.start + t.nUsed ≤ l.length := by
    have := hl (t.start + t.nUsed - 1) (by omega) (by omega)
    have := List.getElem?_eq_some_iff.1 this
    obtain ⟨h, -⟩ := this
    omega
  have hget : ∀ i, i < t.nUsed → ((l.drop t.start).take t.nUsed)[i]? = some (.fin (ω (t.start + i))) := by
    intro i hi
    rw [List.getElem?_take_of_lt hi, List.getElem?_drop]
    exact hl _ (by omega) (by omega)
  have hws : ((l.drop t.start).take t.nUsed).length = t.nUsed := by simp; omega
  have hmem : ∀ x ∈ (l.drop t.start).take t.nUsed, ∃ i, i < t.nUsed ∧ x = .fin (ω (t.start + i)) := by
    intro x hx
    obtain ⟨i, hi, rfl⟩ := List.mem_iff_getElem.1 hx
    refine ⟨i, by omega, ?_⟩
    have := hget i (by omega)
    rw [List.getElem?_eq_getElem hi] at this
    exact Option.some.inj this
  have hnan : NaNFree ((l.drop t.start).take t.nUsed) := by
    intro x hx
    obtain ⟨i, -, rfl⟩ := hmem x hx
    rfl
  obtain ⟨m, hm, em⟩ := hmem _ (hL.max_mem _ (by
    intro h0; rw [h0] at hws; simp at hws; omega) hnan)
  refine ⟨_, t.start + m, by rw [e, rdSlice_some _ _ _ hlen], ⟨by omega, by omega⟩, em, ?_⟩
  intro i hi
  have hm := hL.le_max _ hnan (.fin (ω i)) (by
    have := hget (i - t.start) (by have := hi.2; have := hi.1; omega)
    rw [show t.start + (i - t.start) = i by have := hi.1; omega] at this
    exact List.mem_of_getElem? this)
  rw [em] at hm
  simpa using hm

theorem newtonThread_safe {N : Num Dbl Cpx} (hN : N.ExactAbs) {t : TauD} {p : Psi} {f : Xf}
    (hf : transformOf p = some f) (hr : Ready t t.arrSize)
    (ho : ∃ l, t.carr .tOut = some l ∧ t.arrSize ≤ l.length) {r0 δ : ℚ} {ω : Nat → ℚ}
    (d : EvenData t r0 δ ω t.start (t.start + t.nUsed)) (hn : 0 < t.nUsed) {nwMax : Nat}
    (hmax : ∀ i, InRange t i → 2 * halfPts δ (ω i) + 1 ≤ nwMax) {c : Nat × Nat}
    (hc : ∀ i, c.1 ≤ i → i < c.1 + c.2 → i < t.nUsed) {x : TauD} (hx : OutOf t x) :
    ∃ y, newtonThread N (runXf N) f (.fin (2 * δ)) nwMax c x = .ok y ∧ OutOf t y := by
  have hpos := d.pos
  have hrow : ∀ i, InRange t i → halfPts δ (ω i) ≤ i ∧ i + halfPts δ (ω i) < t.arrSize :=
    fun i hi => d.stale hi.1 hi.2 (by linarith)
  have hs0 : InRange t t.start := ⟨le_refl _, by omega⟩
  have hpts : ∀ i, InRange t i →
      newtonPts N (.fin (ω i)) (.fin (2 * δ)) = .ok (2 * halfPts δ (ω i) + 1) := by
    intro i hi
    rw [newtonPts, d.toSize hN hi.1 hi.2]; rfl
  have hcw : ∀ z, OutOf t z → computeWindow N z = computeWindow N t := by
    rintro z ⟨l, m, -, rfl, -⟩; rfl
  obtain ⟨l0, m0, e0, ex0, hm0⟩ := hx
  have hxx : OutOf t x := ⟨l0, m0, e0, ex0, hm0⟩
  have hst : x.start = t.start := by rw [ex0]; rfl
  have harr : x.arr = t.arr := by rw [ex0]; rfl
  rw [newtonThread, hst, harr, d.rdW (le_refl _) (by omega), Res.ok_bind, hpts _ hs0, Res.ok_bind,
    hcw x hxx]
  obtain ⟨buf, eb, hb⟩ := computeWindow_total (N := N) (buf := rawBuf nwMax) d hs0.1 hs0.2
    (hrow _ hs0).1 (hrow _ hs0).2 (by simpa [rawBuf] using hmax _ hs0)
  rw [eb, Res.ok_bind]
  simp only [rawBuf, List.length_replicate] at hb
  have key := forRange_total (σ := WinSt × TauD)
    (fun _ s => OutOf t s.2 ∧ s.1.w.length = nwMax ∧ s.1.x = [] ∧
      ∃ c0, InRange t c0 ∧ s.1.wInit = .fin (ω c0) ∧ s.1.nw = 2 * halfPts δ (ω c0) + 1)
    (newtonStep N (runXf N) f (.fin (2 * δ))) c.2 c.1
    ({ wInit := .fin (ω t.start), nw := 2 * halfPts δ (ω t.start) + 1, x := [], w := buf }, x)
    ⟨hxx, hb, rfl, t.start, hs0, rfl, rfl⟩
  suffices hstep : _ by
    obtain ⟨s, es, hs, -⟩ := key hstep
    rw [es]; exact ⟨_, rfl, hs⟩
  rintro n ⟨⟨wI, nw, xs, w⟩, z⟩ hn1 hn2 ⟨hz, hw, hxs, c0, hc0, hwI, hnw⟩
  simp only at hz hw hxs hwI hnw
  subst hwI hnw hxs
  have hi : InRange t (t.start + n) := ⟨by omega, by have := hc n hn1 hn2; omega⟩
  have harrz : z.arr = t.arr := by obtain ⟨l, m, -, rfl, -⟩ := hz; rfl
  have hstz : z.start = t.start := by obtain ⟨l, m, -, rfl, -⟩ := hz; rfl
  have hrz : Ready z t.arrSize := by obtain ⟨l, m, -, rfl, -⟩ := hz; exact hr.setC _
  simp only [newtonStep, harrz, hstz, hcw z hz, d.rdW hi.1 hi.2, Res.ok_bind]
  have hwin : ∃ (st : WinSt) (c1 : Nat), (if (N.abs (N.sub (.fin (ω c0)) (.fin (ω (t.start + n))))).ge
        (.fin (2 * δ)) then do
        let nw ← newtonPts N (.fin (ω (t.start + n))) (.fin (2 * δ))
        let buf ← computeWindow N t w nw (t.start + n)
        Res.ok { wInit := .fin (ω (t.start + n)), nw := nw, x := [], w := buf : WinSt }
      else Res.ok { wInit := .fin (ω c0), nw := 2 * halfPts δ (ω c0) + 1, x := [], w := w }) =
        Res.ok st ∧ st.w.length = nwMax ∧ st.x = [] ∧ InRange t c1 ∧ st.wInit = .fin (ω c1) ∧
        st.nw = 2 * halfPts δ (ω c1) + 1 ∧ halfPts δ (ω c1) ≤ t.start + n ∧
        t.start + n + halfPts δ (ω c1) < t.arrSize := by
    split
    · rw [hpts _ hi, Res.ok_bind]
      obtain ⟨b, e, hb⟩ := computeWindow_total (N := N) (buf := w) d hi.1 hi.2 (hrow _ hi).1
        (hrow _ hi).2 (by rw [hw]; exact hmax _ hi)
      rw [e, Res.ok_bind]
      exact ⟨_, t.start + n, rfl, by rw [hb, hw], rfl, hi, rfl, rfl, (hrow _ hi).1, (hrow _ hi).2⟩
    · rename_i hge
      have := d.stale hi.1 hi.2 (d.ge_false hN (by simpa using hge))
      exact ⟨_, c0, rfl, hw, rfl, hc0, rfl, rfl, this.1, this.2⟩
  obtain ⟨st, c1, e, k1, k2, k3, k4, k5, k6, k7⟩ := hwin
  rw [e, Res.ok_bind, k2, k5]
  obtain ⟨v, ev⟩ := transformOf_safe N hf hrz (w := st.w) (d.halfPts_pos k3.1 k3.2)
    (by rw [k1]; exact hmax _ k3) k6 k7
  rw [ev, Res.ok_bind]
  obtain ⟨y, ey, hy⟩ := hz.store (v := v) ho (show t.start + n < t.arrSize by omega)
  rw [ey, Res.ok_bind]
  exact ⟨_, rfl, hy, k1, k2, c1, k3, k4, k5⟩

/-- **C33** for the Newton driver: for evenly sampled data, widths of at
least two samples that lie inside the data and arithmetic without rounding, no
access is out of bounds, for every schedule.  Missing: uneven sampling and windows that
reach the last sample (`C33_newton_false`). -/
theorem C33_newton_partial (N : Num Dbl Cpx) (hN : N.ExactAbs) (L : Lib) (hL : L.Lawful) (E : Env)
    (hE : E.Lawful) (t : TauD) (h : t.err = none) (f : Xf) (hf : transformOf t.psinum = some f)
    (hr : Ready t t.arrSize) (ho : ∃ l, t.carr .tOut = some l ∧ t.arrSize ≤ l.length) (r0 δ : ℚ)
    (ω : Nat → ℚ) (d : EvenData t r0 δ ω t.start (t.start + t.nUsed)) (hn : 0 < t.nUsed) :
    (dcNewton N L (runXf N) E t).Safe := by
  have hrow := d.row_le (i := t.start) (le_refl _) (by omega)
  refine withChecks_safe hN h d (le_refl _) ?_
  rw [d.rdRho (by omega), Res.ok_bind, d.rdRho (by omega), Res.ok_bind]
  obtain ⟨ws, m, ews, hm, emax, hle⟩ := maxWidth hL d (le_refl _) hn
  have htwo : N.mul (N.lit 2) (N.sub (.fin (r0 + δ * (1 : Nat))) (.fin (r0 + δ * (0 : Nat)))) =
      .fin (2 * δ) := by
    rw [hN.sub, hN.lit, hN.mul]; congr 1; push_cast; ring
  rw [ews, Res.ok_bind, emax, htwo, newtonPts, d.toSize hN hm.1 hm.2]
  simp only [Res.ok_bind]
  rw [(C20_select t h f).1 hf]
  simp only [Res.ok_bind, h, Option.isSome_none, Bool.false_eq_true, if_false]
  split
  · exact ⟨_, rfl⟩
  refine runThreads_safe (t := t) _ (fun c hc x hx => ?_) t (OutOf.refl ho)
  refine newtonThread_safe hN hf hr ho d hn (fun i hi => ?_) ?_ hx
  · have := d.mono (hle i hi); omega
  · exact fun i a b => (covers_iff (hE t.nUsed) 0 i).1 ⟨c, hc, by omega, by omega⟩ |>.2 |> fun z => by omega

theorem resetWindow_total {N : Num Dbl Cpx} (sq : Bool) {t : TauD} {r0 δ : ℚ} {ω : Nat → ℚ}
    {lo hi : Nat} (d : EvenData t r0 δ ω lo hi) {c q : Nat} {x w : List Dbl} (h1 : lo ≤ c)
    (h2 : c < hi) (hx : q ≤ x.length) (hw : q ≤ w.length) :
    ∃ b, resetWindow N sq t q c (x, w) = .ok b ∧ b.1.length = x.length ∧
      b.2.length = w.length := by
  unfold resetWindow
  refine forRange_total (fun (_ : Nat) (b : List Dbl × List Dbl) =>
    b.1.length = x.length ∧ b.2.length = w.length) _ _ _ _ ⟨rfl, rfl⟩ (fun n b _ hn hl => ?_)
  rw [resetLoop, wr_lt (by omega), Res.ok_bind, d.rdW h1 h2, Res.ok_bind, wr_lt (by omega), Res.ok_bind,
    wr_lt (by rw [List.length_set]; omega), Res.ok_bind]
  exact ⟨_, rfl, by simpa using hl.1, by simpa using hl.2⟩

/-- Buffers of a half-window driver that hold the window of a processed row `c0`. -/
def HalfBuf (t : TauD) (δ : ℚ) (ω : Nat → ℚ) (st : WinSt) : Prop :=
  st.x.length = st.nw ∧ st.w.length = st.nw ∧
    ∃ c0, InRange t c0 ∧ st.wInit = .fin (ω c0) ∧ st.nw = halfPts δ (ω c0)

theorem halfLoop_safe {N : Num Dbl Cpx} (hN : N.ExactAbs) (E : Env) {t : TauD}
    (ho : ∃ l, t.carr .tOut = some l ∧ t.arrSize ≤ l.length) {r0 δ : ℚ} {ω : Nat → ℚ}
    (d : EvenData t r0 δ ω t.start (t.start + t.nUsed)) {call : Nat → TauD → WinSt → Res Cpx}
    (hcall : ∀ c z st, OutOf t z → 0 < st.nw → st.x.length = st.nw → st.w.length = st.nw →
      st.nw ≤ c → c + st.nw < t.arrSize → (call c z st).Safe) :
    ∀ (cnt center : Nat) (st : WinSt) (z : TauD), t.start ≤ center →
      center + cnt ≤ t.start + t.nUsed → HalfBuf t δ ω st → OutOf t z →
      (halfLoop N E (.fin (2 * δ)) call center cnt st z).Safe := by
  intro cnt
  induction cnt with
  | zero => intro _ _ _ _ _ _ _; exact ⟨_, rfl⟩
  | succ cnt ih =>
    intro center st z h1 h2 hst hz
    have hi : InRange t center := ⟨h1, by omega⟩
    have harr : z.arr = t.arr := by obtain ⟨l, m, -, rfl, -⟩ := hz; rfl
    have hrw : ∀ x w q, resetWindow N false z q center (x, w) =
        resetWindow N false t q center (x, w) := by
      obtain ⟨l, m, -, rfl, -⟩ := hz; intro _ _ _; rfl
    rw [halfLoop]
    have hres : (∃ u, resizeHalf N E (.fin (2 * δ)) center st z = .ok (.ret u)) ∨
        ∃ s, resizeHalf N E (.fin (2 * δ)) center st z = .ok (.go s) ∧ HalfBuf t δ ω s ∧
          0 < s.nw ∧ s.nw ≤ center ∧ center + s.nw < t.arrSize := by
      obtain ⟨e1, e2, c0, hc0, e3, e4⟩ := hst
      simp only [resizeHalf, harr, d.rdW hi.1 hi.2, Res.ok_bind]
      split
      · rw [d.toSize hN hi.1 hi.2, Res.ok_bind, if_neg (d.halfPts_pos hi.1 hi.2).ne']
        split
        · exact .inl ⟨_, rfl⟩
        · rw [hrw]
          obtain ⟨b, e, b1, b2⟩ := resetWindow_total (N := N) false d
            (x := rawBuf (halfPts δ (ω center))) (w := rawBuf (halfPts δ (ω center)))
            (q := halfPts δ (ω center)) hi.1 hi.2 (by simp [rawBuf]) (by simp [rawBuf])
          rw [e, Res.ok_bind]
          have := d.stale hi.1 hi.2 (c0 := center) (by have := d.pos; linarith)
          exact .inr ⟨_, rfl, ⟨by simpa [rawBuf] using b1, by simpa [rawBuf] using b2, center, hi,
            rfl, rfl⟩, d.halfPts_pos hi.1 hi.2, this⟩
      · rename_i hge
        rw [e3] at hge
        have := d.stale hi.1 hi.2 (d.ge_false hN (by simpa using hge))
        rw [← e4] at this
        exact .inr ⟨_, rfl, ⟨e1, e2, c0, hc0, e3, e4⟩,
          by rw [e4]; exact d.halfPts_pos hc0.1 hc0.2, this⟩
    rcases hres with ⟨u, e⟩ | ⟨s, e, hs, h0, h3, h4⟩
    · rw [e]; exact ⟨_, rfl⟩
    · rw [e, Res.ok_bind]
      obtain ⟨v, ev⟩ := hcall center z s hz h0 hs.1 hs.2.1 h3 h4
      simp only [ev, Res.ok_bind]
      obtain ⟨y, ey, hy⟩ := hz.store (v := v) ho (show center < t.arrSize by omega)
      rw [ey, Res.ok_bind]
      exact ih (center + 1) s y (by omega) (by omega) hs hy

theorem halfInit_total {N : Num Dbl Cpx} (hN : N.ExactAbs) {t : TauD} {r0 δ : ℚ} {ω : Nat → ℚ}
    (d : EvenData t r0 δ ω t.start (t.start + t.nUsed)) (hn : 0 < t.nUsed) :
    halfInit N t = .ok (.fin (2 * δ),
      { wInit := .fin (ω t.start), nw := halfPts δ (ω t.start),
        x := rawBuf (halfPts δ (ω t.start)), w := rawBuf (halfPts δ (ω t.start)) }) := by
  have hs0 : InRange t t.start := ⟨le_refl _, by omega⟩
  have hrow := d.row_le hs0.1 hs0.2
  have htwo : N.mul (N.lit 2) (N.sub (.fin (r0 + δ * (t.start + 1 : Nat)))
      (.fin (r0 + δ * (t.start : Nat)))) = .fin (2 * δ) := by
    rw [hN.sub, hN.lit, hN.mul]; congr 1; push_cast; ring
  rw [halfInit, d.rdW hs0.1 hs0.2, Res.ok_bind, d.rdRho (by omega), Res.ok_bind,
    d.rdRho (by omega), Res.ok_bind]
  simp only [htwo, d.toSize hN hs0.1 hs0.2, Res.ok_bind]

theorem halfBody_safe {N : Num Dbl Cpx} (hN : N.ExactAbs) (E : Env) {t : TauD}
    (ho : ∃ l, t.carr .tOut = some l ∧ t.arrSize ≤ l.length) {r0 δ : ℚ} {ω : Nat → ℚ}
    (d : EvenData t r0 δ ω t.start (t.start + t.nUsed)) (hn : 0 < t.nUsed)
    {call : Nat → TauD → WinSt → Res Cpx}
    (hcall : ∀ c z st, OutOf t z → 0 < st.nw → st.x.length = st.nw → st.w.length = st.nw →
      st.nw ≤ c → c + st.nw < t.arrSize → (call c z st).Safe) :
    (do let b ← resetWindow N false t (halfPts δ (ω t.start)) t.start
          (rawBuf (halfPts δ (ω t.start)), rawBuf (halfPts δ (ω t.start)))
        halfLoop N E (.fin (2 * δ)) call t.start t.nUsed
          { wInit := .fin (ω t.start), nw := halfPts δ (ω t.start), x := b.1, w := b.2 } t).Safe := by
  have hs0 : InRange t t.start := ⟨le_refl _, by omega⟩
  obtain ⟨b, e, b1, b2⟩ := resetWindow_total (N := N) false d
    (x := rawBuf (halfPts δ (ω t.start))) (w := rawBuf (halfPts δ (ω t.start)))
    (q := halfPts δ (ω t.start)) hs0.1 hs0.2 (by simp [rawBuf]) (by simp [rawBuf])
  rw [e, Res.ok_bind]
  exact halfLoop_safe hN E ho d hcall _ _ _ _ (le_refl _) (le_refl _)
    ⟨by simpa [rawBuf] using b1, by simpa [rawBuf] using b2, t.start, hs0, rfl, rfl⟩ (OutOf.refl ho)

/-- **C33** for the interpolating driver, under the same hypotheses. -/
theorem C33_interp_partial (N : Num Dbl Cpx) (hN : N.ExactAbs) (E : Env) (t : TauD)
    (h : t.err = none) (f : Xf) (hf : interpTransformOf t.psinum = some f)
    (hr : Ready t t.arrSize) (ho : ∃ l, t.carr .tOut = some l ∧ t.arrSize ≤ l.length) (r0 δ : ℚ)
    (ω : Nat → ℚ) (d : EvenData t r0 δ ω t.start (t.start + t.nUsed)) (hn : 0 < t.nUsed) :
    (dcPolyNewton N (runXf N) E t).Safe := by
  refine withChecks_safe hN h d (le_refl _) ?_
  rw [halfInit_total hN d hn, Res.ok_bind, (C20_select t h f).2 hf]
  simp only [Res.ok_bind, h, Option.isSome_none, Bool.false_eq_true, if_false]
  split
  · exact ⟨_, rfl⟩
  refine halfBody_safe hN E ho d hn (fun c z st hz h0 hx hw h1 h2 => ?_)
  have hrz : Ready z t.arrSize := by obtain ⟨l, m, -, rfl, -⟩ := hz; exact hr.setC _
  cases hp : t.psinum <;> rw [hp] at hf <;> simp [interpTransformOf] at hf <;> subst hf <;>
    unfold runXf <;> simp only
  · exact newton4_safe N hrz h0 hx.ge hw.ge h1 h2
  · exact newtonInterp_safe N _ hrz hx.ge hw.ge h1 h2
  · exact newtonInterp_safe N _ hrz hx.ge hw.ge h1 h2

/-- `x` is `t` up to the contents of `k_vals`. -/
def KOf (t x : TauD) : Prop :=
  ∃ l m, t.arr .k = some l ∧ x = t.setArr .k (some m) ∧ m.length = l.length

/-- **C33** for the Legendre driver, under the same hypotheses, with at least two
polynomial coefficients. -/
theorem C33_legendre_partial (N : Num Dbl Cpx) (hN : N.ExactAbs) (E : Env) (t : TauD)
    (h : t.err = none) (hord : 2 ≤ t.order)
    (hr : Ready t t.arrSize) (ho : ∃ l, t.carr .tOut = some l ∧ t.arrSize ≤ l.length) (r0 δ : ℚ)
    (ω : Nat → ℚ) (d : EvenData t r0 δ ω t.start (t.start + t.nUsed)) (hn : 0 < t.nUsed) :
    (dcLegendre N (runXf N) E t).Safe := by
  refine withChecks_safe hN h d (le_refl _) ?_
  have hrow := d.row_le (i := t.start + t.nUsed - 1) (by omega) (by omega)
  have hk : ∃ u, (if t.useFwd then forRange 0 (t.nUsed + 1) (negateK N) t else .ok t : Res TauD) =
      .ok u ∧ KOf t u := by
    obtain ⟨l, e, hl⟩ := hr.arr .k (by decide)
    have hself : KOf t t := ⟨l, l, e, by rw [← e, setArr_self], rfl⟩
    split
    · refine forRange_total (fun (_ : Nat) u => KOf t u) _ _ _ _ hself (fun n u _ hn' hu => ?_)
      obtain ⟨l', m, e', rfl, hm⟩ := hu
      rw [e] at e'; cases e'
      have hlt : n < m.length := by omega
      rw [negateK, setArr_arr]
      simp only [rdP, rd_lt hlt, Res.ok_bind, wr_lt hlt]
      exact ⟨_, rfl, l, _, e, setArr_setArr _ _ _ _, by simpa using hm⟩
    · exact ⟨t, rfl, hself⟩
  obtain ⟨u, e, hu⟩ := hk
  simp only [e, Res.ok_bind]
  obtain ⟨lk, m, ek, rfl, hm⟩ := hu
  have hr' : Ready (t.setArr .k (some m)) t.arrSize := by
    refine ⟨fun g hg => ?_, hr.tIn, hr.perturb⟩
    by_cases hgk : g = .k
    · subst hgk
      obtain ⟨l, e, hl⟩ := hr.arr .k (by decide)
      rw [ek] at e; cases e
      exact ⟨m, setArr_arr _ _ _, by omega⟩
    · rw [show (t.setArr .k (some m)).arr g = t.arr g by simp [Tau.setArr, hgk]]
      exact hr.arr g hg
  have d' : EvenData (t.setArr .k (some m)) r0 δ ω t.start (t.start + t.nUsed) :=
    ⟨d.pos, d.dx, d.size, d.rho, d.w, d.wide, d.left, d.right⟩
  rw [halfInit_total (t := t.setArr .k (some m)) hN d' hn]
  simp only [Res.ok_bind]
  split
  · exact ⟨_, rfl⟩
  refine halfBody_safe (t := t.setArr .k (some m)) hN E ho d' hn
    (fun c z st hz h0 hx hw h1 h2 => ?_)
  have hrz : Ready z t.arrSize := by obtain ⟨l, m, -, rfl, -⟩ := hz; exact hr'.setC _
  have hoz : z.order = t.order := by obtain ⟨l, m, -, rfl, -⟩ := hz; rfl
  have h2' : c + st.nw < t.arrSize := h2
  refine Res.Safe.bind ?_ fun co hco => ?_
  · unfold legCoeffs
    refine (rdP_safe hrz (by decide) (by omega)).bind fun _ _ => ?_
    refine (rdP_safe hrz (by decide) (by omega)).bind fun _ _ => ⟨_, rfl⟩
  · have hl : co.length = z.order := by
      unfold legCoeffs at hco
      obtain ⟨_, -, hco⟩ := Res.bind_eq_ok.1 hco
      obtain ⟨_, -, hco⟩ := Res.bind_eq_ok.1 hco
      cases hco
      simp
    unfold runXf
    exact legendre_safe N _ hrz hx.ge hw.ge (by omega) hl.ge h1 h2'

/-- **C33** for the Fresnel driver, whose loop runs one row past the processing range: the
same hypotheses for that row too, and its width must not exceed all the processed ones
(`C33_fresnel_false`). -/
theorem C33_fresnel_partial (N : Num Dbl Cpx) (hN : N.ExactAbs) (L : Lib) (hL : L.Lawful) (E : Env)
    (hE : E.Lawful) (t : TauD) (h : t.err = none)
    (hr : Ready t t.arrSize) (ho : ∃ l, t.carr .tOut = some l ∧ t.arrSize ≤ l.length) (r0 δ : ℚ)
    (ω : Nat → ℚ) (d : EvenData t r0 δ ω t.start (t.start + t.nUsed + 1)) (hn : 0 < t.nUsed)
    (hlast : ∃ i, InRange t i ∧ ω (t.start + t.nUsed) ≤ ω i) :
    (dcFresnel N L (runXf N) E t).Safe := by
  refine withChecks_safe hN h d (by omega) ?_
  split
  · exact ⟨_, rfl⟩
  obtain ⟨ws, m, ews, hm, emax, hle⟩ := maxWidth hL d (by omega) hn
  have hpos := d.pos
  have hall : ∀ i, t.start ≤ i → i < t.start + t.nUsed + 1 → ω i ≤ ω m := by
    intro i h1 h2
    rcases Nat.lt_or_ge i (t.start + t.nUsed) with h3 | h3
    · exact hle i ⟨h1, h3⟩
    · obtain ⟨j, hj, hl⟩ := hlast
      rw [show i = t.start + t.nUsed by omega]
      exact le_trans hl (hle j hj)
  refine runThreads_safe (t := t) _ (fun c hc x hx => ?_) t (OutOf.refl ho)
  have hcs : ∀ i, c.1 ≤ i → i < c.1 + c.2 → i < t.nUsed + 1 := fun i a b => by
    have := (covers_iff (hE (t.nUsed + 1)) 0 i).1 ⟨c, hc, by omega, by omega⟩
    omega
  have hst : x.start = t.start := by obtain ⟨l, m, -, rfl, -⟩ := hx; rfl
  have hnu : x.nUsed = t.nUsed := by obtain ⟨l, m, -, rfl, -⟩ := hx; rfl
  have hdx : x.dx = .fin δ := by obtain ⟨l, m, -, rfl, -⟩ := hx; exact d.dx
  have harr : x.arr = t.arr := by obtain ⟨l, m, -, rfl, -⟩ := hx; rfl
  have htwo : N.mul (N.lit 2) (.fin δ) = .fin (2 * δ) := by rw [hN.lit, hN.mul]
  have hm2 : m < t.start + t.nUsed + 1 := by have := hm.2; omega
  simp only [fresnelThread, hst, hnu, hdx, harr, ews, Res.ok_bind, emax, htwo,
    d.toSize hN hm.1 hm2]
  have key := forRange_total (σ := WinSt × TauD)
    (fun _ s => OutOf t s.2 ∧ s.1.w.length = halfPts δ (ω m) ∧ s.1.x.length = halfPts δ (ω m) ∧
      (s.1.nw = 0 ∨ ∃ c0, t.start ≤ c0 ∧ c0 < t.start + t.nUsed + 1 ∧ s.1.wInit = .fin (ω c0) ∧
        s.1.nw = halfPts δ (ω c0)))
    (fresnelLoop N (runXf N) (.fin (2 * δ))) c.2 c.1
    ({ wInit := N.mul (N.lit (-4)) (.fin (ω m)), nw := 0, x := rawBuf (halfPts δ (ω m)),
       w := rawBuf (halfPts δ (ω m)) }, x)
    ⟨hx, by simp [rawBuf], by simp [rawBuf], .inl rfl⟩
  suffices hstep : _ by
    obtain ⟨s, es, hs, -⟩ := key hstep
    rw [es]; exact ⟨_, rfl, hs⟩
  rintro n ⟨⟨wI, nw, xs, w⟩, z⟩ hn1 hn2 ⟨hz, hw, hxs, hwin⟩
  simp only at hz hw hxs hwin
  have hi1 : t.start ≤ t.start + n := by omega
  have hi2 : t.start + n < t.start + t.nUsed + 1 := by have := hcs n hn1 hn2; omega
  have hrow := d.row_le hi1 hi2
  have harrz : z.arr = t.arr := by obtain ⟨l, m, -, rfl, -⟩ := hz; rfl
  have hstz : z.start = t.start := by obtain ⟨l, m, -, rfl, -⟩ := hz; rfl
  have hrz : Ready z t.arrSize := by obtain ⟨l, m, -, rfl, -⟩ := hz; exact hr.setC _
  have hrw : ∀ x w q, resetWindow N true z q (t.start + n) (x, w) =
      resetWindow N true t q (t.start + n) (x, w) := by
    obtain ⟨l, m, -, rfl, -⟩ := hz; intro _ _ _; rfl
  simp only [fresnelLoop, harrz, hstz, d.rdW hi1 hi2, Res.ok_bind]
  have hres : ∃ (st : WinSt), (if (N.abs (N.sub wI (.fin (ω (t.start + n))))).ge
        (.fin (2 * δ)) then do
        let nw ← (N.div (.fin (ω (t.start + n))) (.fin (2 * δ))).toSize
        let b ← resetWindow N true z nw (t.start + n) (xs, w)
        Res.ok { wInit := .fin (ω (t.start + n)), nw := nw, x := b.1, w := b.2 : WinSt }
      else Res.ok { wInit := wI, nw := nw, x := xs, w := w }) = Res.ok st ∧
        st.w.length = halfPts δ (ω m) ∧ st.x.length = halfPts δ (ω m) ∧
        (st.nw = 0 ∨ ∃ c0, t.start ≤ c0 ∧ c0 < t.start + t.nUsed + 1 ∧ st.wInit = .fin (ω c0) ∧
          st.nw = halfPts δ (ω c0)) ∧ st.nw ≤ halfPts δ (ω m) ∧ st.nw ≤ t.start + n ∧
        t.start + n + st.nw < t.arrSize := by
    split
    · rw [d.toSize hN hi1 hi2, Res.ok_bind, hrw]
      have hq := d.mono (hall _ hi1 hi2)
      obtain ⟨b, e, b1, b2⟩ := resetWindow_total (N := N) true d (x := xs) (w := w) hi1 hi2
        (q := halfPts δ (ω (t.start + n))) (by omega) (by omega)
      rw [e, Res.ok_bind]
      have := d.stale hi1 hi2 (c0 := t.start + n) (by linarith)
      exact ⟨_, rfl, b2.trans hw, b1.trans hxs, .inr ⟨t.start + n, hi1, hi2, rfl, rfl⟩, hq, this⟩
    · rename_i hge
      rcases hwin with h0 | ⟨c0, a, b, rfl, rfl⟩
      · exact ⟨_, rfl, hw, hxs, .inl h0, by simp only [h0]; omega, by simp only [h0]; omega,
          by simp only [h0]; omega⟩
      · have := d.stale hi1 hi2 (d.ge_false hN (by simpa using hge))
        exact ⟨_, rfl, hw, hxs, .inr ⟨c0, a, b, rfl, rfl⟩, d.mono (hall _ a b), this⟩
  obtain ⟨st, e, k1, k2, k3, k4, k5, k6⟩ := hres
  rw [e, Res.ok_bind]
  obtain ⟨v, ev⟩ : (runXf N .fresnel z st.x st.w [] st.nw (t.start + n)).Safe := by
    unfold runXf
    exact fresnel_safe N hrz (k2.symm ▸ k4) (k1.symm ▸ k4) k5 k6
  rw [ev, Res.ok_bind]
  obtain ⟨y, ey, hy⟩ := hz.store (v := v) ho (show t.start + n < t.arrSize by omega)
  rw [ey, Res.ok_bind]
  exact ⟨_, rfl, hy, k1, k2, k3⟩

/-! ### Where the hypotheses come from -/

/-- The hypotheses above follow from the selection of the processing range: for evenly
sampled radii, arithmetic without rounding and window ends that ascend, the windows of all
processed rows, and of the row after them, lie inside the data. -/
theorem C33_selected (N : Num Dbl Cpx) (hN : N.ExactAbs) (L : Lib) (t u : TauD)
    (rho F k v w : List Dbl) (d : RangeData t rho F k v) (r0 δ : ℚ) (hδ : 0 < δ)
    (heven : ∀ (j : Nat) (r : Dbl), rho[j]? = some r → r = .fin (r0 + δ * j)) (hdx : t.dx = .fin δ)
    (hsize : t.arrSize < 2 ^ 64) (hr : t.range0.isNaN = false)
    (e : getWindowWidth N L t = .ok u) (hu : u.err = none) (hw : u.arr .w = some w)
    (he : EndsAscend N t.range0 t.range1 rho w) (ω : Nat → ℚ)
    (hω : ∀ i, u.start ≤ i → i ≤ u.start + u.nUsed → w[i]? = some (.fin (ω i)) ∧ 2 * δ ≤ ω i) :
    EvenData u r0 δ ω u.start (u.start + u.nUsed + 1) := by
  have ha : Ascending rho := by
    intro i j x y hij hi hj
    rw [heven i x hi, heven j y hj]
    have : (i : ℚ) ≤ j := by exact_mod_cast hij
    simp only [Dbl.le_fin, decide_eq_true_eq]
    nlinarith
  obtain ⟨-, -, -, -, harr, -, hsame⟩ := C09_range_in_data N L t u rho F k v d e hu
  have hA : u.arrSize = t.arrSize := by rw [← hsame]
  have hd : u.dx = t.dx := by rw [← hsame]
  have hin : ∀ i, u.start ≤ i → i < u.start + u.nUsed + 1 → WindowInside N rho w i := by
    intro i h1 h2
    rcases Nat.lt_or_ge i (u.start + u.nUsed) with h3 | h3
    · exact ((C11_maximal_partial N L t u rho F k v w d ha hr e hu hw he i).1 ⟨h1, h3⟩).1.2
    · rw [show i = u.start + u.nUsed by omega]
      exact (C11_last_dropped N L t u rho F k v w d ha hr e hu hw he).1.2
  have hs := d.size
  have hl := d.lrho
  have hends : ∀ i, u.start ≤ i → i < u.start + u.nUsed + 1 →
      r0 ≤ (r0 + δ * i) - ω i / 2 ∧ (r0 + δ * i) + ω i / 2 ≤ r0 + δ * ((u.arrSize : ℚ) - 1) := by
    intro i h1 h2
    obtain ⟨r, x, f, g, a1, a2, a3, a4, a5, a6⟩ := hin i h1 h2
    rw [(hω i h1 (by omega)).1] at a2; cases a2
    rw [heven _ _ a1, heven _ _ a3, hN.lit, hN.mul, hN.sub, Dbl.lt_fin, decide_eq_true_eq] at a5
    rw [heven _ _ a1, heven _ _ a4, hN.lit, hN.mul, hN.add, Dbl.lt_fin, decide_eq_true_eq, hl,
      Nat.cast_sub (by omega), Nat.cast_one] at a6
    rw [hA]
    constructor <;> push_cast at * <;> linarith
  refine ⟨hδ, hd.trans hdx, by omega, ⟨rho, ?_, by omega, fun j hj => ?_⟩, ⟨w, hw, fun i h1 h2 =>
    (hω i h1 (by omega)).1⟩, fun i h1 h2 => (hω i h1 (by omega)).2,
    fun i h1 h2 => (hends i h1 h2).1, fun i h1 h2 => (hends i h1 h2).2⟩
  · rw [harr _ (by decide), d.hrho]
  · have hj' : j < rho.length := by omega
    rw [List.getElem?_eq_getElem hj', heven j _ (List.getElem?_eq_getElem hj')]

/-! ### What goes wrong -/

theorem accepts {N : Num Dbl Cpx} {t : TauD} (h : t.err = none)
    (hp : ∃ u, checkDataRange N t = .ok u ∧ (u.err == none) = true) :
    checkDataRange N t = .ok t := by
  obtain ⟨u, e, hu⟩ := hp
  rcases checkDataRange_cases N h e with ⟨l, rfl⟩ | ⟨rfl, -⟩
  · simp at hu
  · exact e

/-- **C33** is false: an object with full-length arrays that `Check_Data_Range` accepts,
whose only window ends one sample behind the last one. -/
theorem C33_newton_false :
    ∃ t : TauD, t.err = none ∧ t.psinum = .newtonRiemann ∧ Ready t t.arrSize ∧ 0 < t.nUsed ∧
      checkDataRange exactNum t = .ok t ∧
      dcNewton exactNum unitLib (runXf exactNum) exampleEnv t = .ub .oobRead := by
  refine ⟨{ dcTau .newtonRiemann false (List.replicate 10 (.fin 6)) with start := 7, nUsed := 1 },
    rfl, rfl, ⟨?_, ⟨_, rfl, by decide⟩, by decide⟩, by decide, ?_, ?_⟩
  · intro f hf
    simp only [xfFields, List.mem_cons, List.not_mem_nil, or_false] at hf
    rcases hf with rfl | rfl | rfl | rfl | rfl | rfl | rfl | rfl | rfl <;>
      exact ⟨_, rfl, by decide⟩
  · exact accepts rfl (Res.of_test (by decide +kernel))
  · exact Res.of_isUB (by decide +kernel)

/-- **C33** is false for the quadratic Filon quadrature with windows narrower than two
samples: the loop bound wraps around. -/
theorem C33_filon_narrow_false :
    ∃ t : TauD, t.err = none ∧ t.psinum = .newtonFilon02 ∧ Ready t t.arrSize ∧ 0 < t.nUsed ∧
      checkDataRange exactNum t = .ok t ∧
      dcNewton exactNum unitLib (runXf exactNum) exampleEnv t = .ub .oobRead := by
  refine ⟨dcTau .newtonFilon02 false (List.replicate 10 (.fin 1)),
    rfl, rfl, ⟨?_, ⟨_, rfl, by decide⟩, by decide⟩, by decide, ?_, ?_⟩
  · intro f hf
    simp only [xfFields, List.mem_cons, List.not_mem_nil, or_false] at hf
    rcases hf with rfl | rfl | rfl | rfl | rfl | rfl | rfl | rfl | rfl <;>
      exact ⟨_, rfl, by decide⟩
  · exact accepts rfl (Res.of_test (by decide +kernel))
  · exact Res.of_isUB (by decide +kernel)

/-- Width 4 in the processing range, 6 in the row behind it. -/
def widerNext : List Dbl := [4, 4, 4, 4, 4, 4, 6, 4, 4, 4].map Dbl.fin

/-- **C33** is false for the Fresnel driver: the extra row after the processing range may
have a wider window than the buffers, which are sized for the processed rows. -/
theorem C33_fresnel_false :
    ∃ t : TauD, t.err = none ∧ t.psinum = .fresnel ∧
      EvenData t 10 1 (fun i => if i = 6 then 6 else 4) t.start (t.start + t.nUsed + 1) ∧
      Ready t t.arrSize ∧ 0 < t.nUsed ∧ checkDataRange exactNum t = .ok t ∧
      dcFresnel exactNum unitLib (runXf exactNum) exampleEnv t = .ub .oobWrite := by
  refine ⟨dcTau .fresnel false widerNext, rfl, rfl, ?_, ⟨?_, ⟨_, rfl, by decide⟩, by decide⟩,
    by decide, ?_, ?_⟩
  · refine ⟨by norm_num, rfl, by decide, ⟨tenRadii, rfl, rfl, ?_⟩, ⟨widerNext, rfl, ?_⟩, ?_, ?_, ?_⟩
    · show ∀ j < 10, _
      decide +kernel
    · show ∀ i, 3 ≤ i → i < 7 → _
      decide +kernel
    · show ∀ i, 3 ≤ i → i < 7 → _
      decide +kernel
    · show ∀ i, 3 ≤ i → i < 7 → _
      decide +kernel
    · show ∀ i, 3 ≤ i → i < 7 → _ ≤ (10 : ℚ) + 1 * (((10 : Nat) : ℚ) - 1)
      decide +kernel
  · intro f hf
    simp only [xfFields, List.mem_cons, List.not_mem_nil, or_false] at hf
    rcases hf with rfl | rfl | rfl | rfl | rfl | rfl | rfl | rfl | rfl <;>
      exact ⟨_, rfl, by decide⟩
  · exact accepts rfl (Res.of_test (by decide +kernel))
  · exact Res.of_isUB (by decide +kernel)

/-- Non-vacuity of the `C33_*_partial` theorems: ten radii, windows of width 4. -/
theorem dcTau_even (psi : Psi) (fwd : Bool) :
    EvenData (dcTau psi fwd fours) 10 1 (fun _ => 4) 3 7 ∧ Ready (dcTau psi fwd fours) 10 := by
  refine ⟨⟨by norm_num, rfl, show 10 < 2 ^ 64 by decide, ⟨tenRadii, rfl, rfl, ?_⟩,
    ⟨fours, rfl, ?_⟩, ?_, ?_, ?_⟩,
    ⟨?_, ⟨_, rfl, by decide⟩, show 5 ≤ (dcTau .fresnel false fours).perturb.length by decide⟩⟩
  · show ∀ j < 10, _
    decide +kernel
  · show ∀ i, 3 ≤ i → i < 7 → _
    decide +kernel
  · intro i _ _; norm_num
  · show ∀ i, 3 ≤ i → i < 7 → _
    decide +kernel
  · show ∀ i, 3 ≤ i → i < 7 → _ ≤ (10 : ℚ) + 1 * (((10 : Nat) : ℚ) - 1)
    decide +kernel
  · intro f hf
    simp only [xfFields, List.mem_cons, List.not_mem_nil, or_false] at hf
    rcases hf with rfl | rfl | rfl | rfl | rfl | rfl | rfl | rfl | rfl <;>
      exact ⟨_, rfl, by decide⟩

example : ∃ u, dcFresnel exactNum unitLib (runXf exactNum) exampleEnv (dcTau .fresnel false fours) =
    .ok u :=
  C33_fresnel_partial exactNum exactNum_exactAbs unitLib unitLib_lawful exampleEnv
    exampleEnv_lawful _ rfl (dcTau_even _ _).2 ⟨_, rfl, by decide⟩ 10 1 _ (dcTau_even _ _).1
    (by decide) ⟨3, ⟨by decide, by decide⟩, le_refl _⟩

end Verif
