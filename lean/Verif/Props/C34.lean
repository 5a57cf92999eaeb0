import Verif.Props.C13
import Verif.Props.C20
import Verif.Spec.Driver

/-!
# C34, C35, C60: what the drivers write and which window they use
-/
namespace Verif
open Spec

theorem rdP_eq_ok {α : Type} {p : Option (List α)} {i : Nat} {x : α} :
    rdP p i = .ok x ↔ ∃ l, p = some l ∧ l[i]? = some x := by
  cases p with
  | none => simp
  | some l => simp [rd_eq_ok]

theorem OutOnly.writesOnly {lo hi : Nat} {P : Nat → Prop} {t u : TauD} (h : OutOnly P t u)
    (hP : ∀ i, P i → lo ≤ i ∧ i < hi) : WritesOnly lo hi t u where
  arr := fun f => by rw [h.arr]
  tIn := by rw [h.same]; exact setC_carr_ne _ _ (by decide)
  tFwd := by rw [h.same]; exact setC_carr_ne _ _ (by decide)
  rest := by rw [h.same]; rfl
  null := h.none
  out := fun l hl => by
    obtain ⟨l', a, b, c⟩ := h.out l hl
    exact ⟨l', a, b, fun i hi => c i (fun hp => by have := hP i hp; omega)⟩

theorem Filled.outRow {V : Nat → Cpx → Prop} {P : Nat → Prop} {t u : TauD} (h : Filled V P t u)
    {i : Nat} (hi : P i) : ∃ v, OutRow u i v ∧ V i v := by
  obtain ⟨l, v, a, b, c⟩ := h.vals i hi
  exact ⟨v, ⟨l, a, b⟩, c⟩

theorem FirstSpacing.of_rdP {N : Num Dbl Cpx} {t : TauD} {i : Nat} {r0 r1 : Dbl}
    (h0 : rdP (t.arr .rho) i = .ok r0) (h1 : rdP (t.arr .rho) (i + 1) = .ok r1) :
    FirstSpacing N t i (N.mul (N.lit 2) (N.sub r1 r0)) := by
  obtain ⟨rho, e0, a⟩ := rdP_eq_ok.1 h0
  obtain ⟨rho', e1, b⟩ := rdP_eq_ok.1 h1
  rw [e0] at e1; cases e1
  exact ⟨rho, r0, r1, e0, a, b, rfl⟩

theorem NearWidth.of_near {N : Num Dbl Cpx} {t : TauD} {twoDx : Dbl} {c0 i : Nat} {w0 : Dbl}
    (h0 : rdP (t.arr .w) c0 = .ok w0) (hn : ∃ wc, rdP (t.arr .w) i = .ok wc ∧
      ((N.abs (N.sub w0 wc)).ge twoDx = false ∨ w0 = wc)) :
    ∃ wi, NearWidth N t twoDx c0 i w0 wi := by
  obtain ⟨ws, e, h0⟩ := rdP_eq_ok.1 h0
  obtain ⟨wi, h1, hn⟩ := hn
  obtain ⟨ws', e', h1⟩ := rdP_eq_ok.1 h1
  rw [e] at e'; cases e'
  exact ⟨wi, ws, e, h0, h1, hn⟩

/-! ### C60 -/

/-- **C60** for the Newton driver: every processed row gets the value of the method's
transform with the window of some row `c0` not after it (`2 w0/twoDx + 1` points, window
function values for the width `w0` of that row), where `w0` is less than two samples away
from the row's own width.  Any schedule, any arithmetic. -/
theorem C60_newton (N : Num Dbl Cpx) (L : Lib) (E : Env) (hE : E.Lawful) (t u : TauD) (f : Xf)
    (h : t.err = none) (hf : transformOf t.psinum = some f)
    (e : dcNewton N L (runXf N) E t = .ok u) (hu : u.err = none) :
    ∃ twoDx, FirstSpacing N t 0 twoDx ∧ ∀ i, InRange t i →
      ∃ c0, t.start ≤ c0 ∧ c0 ≤ i ∧ FullWindowValue N f twoDx t u c0 i := by
  rcases dcNewton_ok (runXf_ignoresOut N) h (hE _) e with ⟨fn, l, rfl⟩ | ⟨-, -, g, r0, r1, ws,
    nwMax, hg, h0, h1, -, -, hF⟩
  · cases hu
  have hfg : f = g := by
    cases hp : t.psinum <;> rw [hp] at hf hg <;> simp [transformOf] at hf <;> subst hf <;>
      simpa [Psi.toNat, newtonTable] using hg
  subst hfg
  refine ⟨_, FirstSpacing.of_rdP h0 h1, fun i hi => ?_⟩
  obtain ⟨v, hv, c, -, hc1, hc2, st, hw, ev⟩ := hF.outRow (i := i) hi
  obtain ⟨c0, hc0, hw0, hq, hold⟩ := hw.src
  obtain ⟨wi, hnear⟩ := NearWidth.of_near hw0 hw.near
  rw [newtonPts, Res.bind_eq_ok] at hq
  obtain ⟨q, hq, e'⟩ := hq
  have hnw : 2 * q + 1 = st.nw := by simpa using e'
  refine ⟨c0, by omega, ?_, st.wInit, wi, q, st.w, v, hnear, hq, by rw [hnw]; exact hold, ?_, hv⟩
  · have := hi.1; omega
  · rw [hnw]; exact ev

/-- **C60** for the interpolating Newton driver. -/
theorem C60_interp (N : Num Dbl Cpx) (E : Env) (t u : TauD) (f : Xf)
    (h : t.err = none) (hf : interpTransformOf t.psinum = some f)
    (e : dcPolyNewton N (runXf N) E t = .ok u) (hu : u.err = none) :
    ∃ twoDx, FirstSpacing N t t.start twoDx ∧ ∀ i, InRange t i →
      ∃ c0, t.start ≤ c0 ∧ c0 ≤ i ∧ HalfWindowValue N f [] false twoDx t u c0 i := by
  rcases dcPolyNewton_ok (runXf_ignoresOut N) h e with ⟨k, v, fn, l, -, -, rfl⟩ | ⟨-, -, g, ini, hg,
    hini, hF⟩
  · cases hu
  have hfg : f = g := by
    cases hp : t.psinum <;> rw [hp] at hf hg <;> simp [interpTransformOf] at hf <;> subst hf <;>
      simpa [Psi.toNat, newtonInterpTable] using hg
  subst hfg
  obtain ⟨w0, r0, r1, -, h0, h1, h2, -⟩ := halfInit_ok hini
  refine ⟨ini.1, by rw [h2]; exact FirstSpacing.of_rdP h0 h1, fun i hi => ?_⟩
  obtain ⟨v, hv, st, hw, ev⟩ := hF.outRow (i := i) hi
  obtain ⟨c0, hc0, hc1, hw0, hq, hold⟩ := hw.src
  obtain ⟨wi, hnear⟩ := NearWidth.of_near hw0 hw.near
  exact ⟨c0, hc0, hc1, st.wInit, wi, st.nw, st.x, st.w, v, hnear, hq, hold, ev, hv⟩

theorem legSelect_eq (order : Nat) (norm : Bool) : legSelect order norm = legendreOf order norm := by
  unfold legSelect legendreOf
  rcases Nat.mod_two_eq_zero_or_one order with h | h <;> cases norm <;> simp [h]

theorem legCoeffs_ok {N : Num Dbl Cpx} {t : TauD} {i : Nat} {c : List Dbl}
    (e : legCoeffs N t i = .ok c) : LegendreCoeffs N t i c := by
  unfold legCoeffs at e
  simp only [Res.bind_eq_ok] at e
  obtain ⟨B, hB, phi, hphi, e⟩ := e
  cases e
  obtain ⟨Bs, a1, a2⟩ := rdP_eq_ok.1 hB
  obtain ⟨phis, b1, b2⟩ := rdP_eq_ok.1 hphi
  exact ⟨Bs, phis, B, phi, a1, a2, b1, b2, by simp, fun j hj => by simp [hj]⟩

/-- **C60** for the Legendre driver in the inverse direction. -/
theorem C60_legendre (N : Num Dbl Cpx) (E : Env) (t u : TauD) (h : t.err = none)
    (hfwd : t.useFwd = false) (e : dcLegendre N (runXf N) E t = .ok u) (hu : u.err = none) :
    ∃ twoDx, FirstSpacing N t t.start twoDx ∧ ∀ i, InRange t i →
      ∃ c0 c, t.start ≤ c0 ∧ c0 ≤ i ∧ LegendreCoeffs N t i c ∧
        HalfWindowValue N (.leg (legendreOf t.order t.useNorm)) c false twoDx t u c0 i := by
  rcases dcLegendre_ok (runXf_ignoresOut N) h e with ⟨fn, l, rfl⟩ | ⟨-, -, t1, h1, h2⟩
  · cases hu
  rw [hfwd] at h1
  simp only [Bool.false_eq_true, if_false] at h1
  subst h1
  rcases h2 with ⟨k, v, fn, l, -, -, rfl⟩ | ⟨ini, hini, hF⟩
  · cases hu
  obtain ⟨w0, r0, r1, -, h0, h1, h2, -⟩ := halfInit_ok hini
  refine ⟨ini.1, by rw [h2]; exact FirstSpacing.of_rdP h0 h1, fun i hi => ?_⟩
  obtain ⟨v, hv, st, hw, ev⟩ := hF.outRow (i := i) hi
  rw [legCall, Res.bind_eq_ok] at ev
  obtain ⟨c, hc, ev⟩ := ev
  obtain ⟨c0, hc0, hc1, hw0, hq, hold⟩ := hw.src
  obtain ⟨wi, hnear⟩ := NearWidth.of_near hw0 hw.near
  rw [legSelect_eq] at ev
  exact ⟨c0, c, hc0, hc1, legCoeffs_ok hc, st.wInit, wi, st.nw, st.x, st.w, v, hnear, hq, hold, ev,
    hv⟩

/-- **C60** for the Fresnel driver; here the very first window (no points at all) may also
stay in use. -/
theorem C60_fresnel (N : Num Dbl Cpx) (L : Lib) (E : Env) (hE : E.Lawful) (t u : TauD)
    (h : t.err = none) (e : dcFresnel N L (runXf N) E t = .ok u) (hu : u.err = none) :
    ∀ i, t.start ≤ i → i ≤ t.start + t.nUsed →
      (∃ c0, t.start ≤ c0 ∧ c0 ≤ i ∧
        HalfWindowValue N .fresnel [] true (N.mul (N.lit 2) t.dx) t u c0 i) ∨
      (∃ ws wi x w v, rdSlice (t.arr .w) t.start t.nUsed = .ok ws ∧
        rdP (t.arr .w) i = .ok wi ∧
        ((N.abs (N.sub (N.mul (N.lit (-4)) (L.arrMax ws)) wi)).ge (N.mul (N.lit 2) t.dx) = false ∨
          N.mul (N.lit (-4)) (L.arrMax ws) = wi) ∧
        runXf N .fresnel t x w [] 0 i = .ok v ∧ OutRow u i v) := by
  rcases dcFresnel_ok (runXf_ignoresOut N) h (hE _) e with ⟨fn, l, rfl⟩ | ⟨-, -, ws, nwMax, hws, -,
    hF⟩
  · cases hu
  intro i hi1 hi2
  obtain ⟨v, hv, c, -, hc1, hc2, st, hw, ev⟩ := hF.outRow (i := i) ⟨hi1, by omega⟩
  rcases hw.src with ⟨hnw, hwi⟩ | ⟨c0, hc0, hc1, hw0, hq, hold⟩
  · obtain ⟨wc, e1, e2⟩ := hw.near
    rw [hwi] at e2
    rw [hnw] at ev
    exact .inr ⟨ws, wc, st.x, st.w, v, hws, e1, e2, ev, hv⟩
  · obtain ⟨wi, hnear⟩ := NearWidth.of_near hw0 hw.near
    exact .inl ⟨c0, by omega, hc1, st.wInit, wi, st.nw, st.x, st.w, v, hnear, hq, hold, ev, hv⟩

/-- **C60**, the distance as a number: without rounding, `NearWidth` means
`|w0 - wi| < twoDx`. -/
theorem C60_distance (N : Num Dbl Cpx) (hN : N.ExactOps)
    (habs : ∀ a, N.abs (.fin a) = .fin |a|) (t : TauD) (a b d : ℚ) (c0 i : Nat) (hd : 0 < d)
    (h : NearWidth N t (.fin d) c0 i (.fin a) (.fin b)) : |a - b| < d := by
  obtain ⟨-, -, -, -, h⟩ := h
  rcases h with h | h
  · rw [hN.sub, habs] at h
    simp [Dbl.ge, Dbl.le, Dbl.lt, Dbl.eq] at h
    exact lt_of_le_of_ne h.1 (Ne.symm h.2)
  · cases h; simpa using hd

/-- **C60**, the initial window of the Fresnel driver: without rounding it only stays in
use at rows whose own window has no points either. -/
theorem C60_fresnel_initial (N : Num Dbl Cpx) (hN : N.ExactOps)
    (habs : ∀ a, N.abs (.fin a) = .fin |a|) (m a d : ℚ) (ha : 0 < a) (hm : a ≤ m) (hd : 0 < d)
    (h : (N.abs (N.sub (N.mul (N.lit (-4)) (.fin m)) (.fin a))).ge (.fin d) = false ∨
      N.mul (N.lit (-4)) (.fin m) = .fin a) : (N.div (.fin a) (.fin d)).toSize = .ok 0 := by
  rw [hN.lit, hN.mul] at h
  have hlt : a < d := by
    rcases h with h | h
    · rw [hN.sub, habs] at h
      simp [Dbl.ge, Dbl.le, Dbl.lt, Dbl.eq] at h
      have : |-(4 * m) - a| = 4 * m + a := by
        rw [abs_of_nonpos (by linarith)]; ring
      have := h.1
      linarith
    · injection h with h
      linarith
  rw [hN.div _ _ hd.ne']
  have h1 : a / d < 1 := (div_lt_one hd).2 hlt
  have h2 : 0 < a / d := div_pos ha hd
  have hfl : (a / d).floor = 0 := by
    show ⌊a / d⌋ = 0
    rw [Int.floor_eq_zero_iff]
    exact ⟨h2.le, h1⟩
  simp only [Dbl.toSize]
  rw [if_pos ⟨by linarith, by linarith⟩, hfl]
  rfl

/-! ### C34 -/

/-- **C34** as far as it holds: for every method except Fresnel and the forward Legendre
transform, the correction writes `T_out` only at rows `start .. start+n_used-1` and changes
nothing else (besides possibly setting an error). -/
theorem C34_writes_partial (N : Num Dbl Cpx) (L : Lib) (Z : FFT) (E : Env) (hE : E.Lawful)
    (t u : TauD) (h : t.err = none) (hp : t.psinum ≠ .fresnel)
    (hl : t.psinum = .legendre → t.useFwd = false)
    (e : diffractionCorrection N L (runXf N) Z E t = .ok u) :
    ∃ v, WritesOnly t.start (t.start + t.nUsed) t v ∧ (u = v ∨ ∃ fn l, u = v.fail fn l) := by
  have hs := runXf_ignoresOut N
  have hrefl : WritesOnly t.start (t.start + t.nUsed) t t :=
    (OutOnly.refl (fun _ => False) t).writesOnly (fun i hi => hi.elim)
  rw [C20_dispatch _ _ _ _ _ _ h] at e
  have newton : dcNewton N L (runXf N) E t = .ok u →
      ∃ v, WritesOnly t.start (t.start + t.nUsed) t v ∧ (u = v ∨ ∃ fn l, u = v.fail fn l) := by
    intro e
    rcases dcNewton_ok hs h (hE _) e with ⟨fn, l, rfl⟩ | ⟨-, -, g, r0, r1, ws, nwMax, -, -, -, -, -,
      hF⟩
    · exact ⟨t, hrefl, .inr ⟨fn, l, rfl⟩⟩
    · exact ⟨u, hF.toOutOnly.writesOnly (fun i hi => hi), .inl rfl⟩
  have interp : dcPolyNewton N (runXf N) E t = .ok u →
      ∃ v, WritesOnly t.start (t.start + t.nUsed) t v ∧ (u = v ∨ ∃ fn l, u = v.fail fn l) := by
    intro e
    rcases dcPolyNewton_ok hs h e with ⟨k, v, fn, l, hk, hO, rfl⟩ | ⟨-, -, g, ini, -, -, hF⟩
    · exact ⟨v, hO.writesOnly (fun i hi => by omega), .inr ⟨fn, l, rfl⟩⟩
    · exact ⟨u, hF.toOutOnly.writesOnly (fun i hi => hi), .inl rfl⟩
  cases hq : t.psinum <;> rw [hq] at e <;> simp only at e
  case fresnel => exact absurd hq hp
  case legendre =>
    rcases dcLegendre_ok hs h e with ⟨fn, l, rfl⟩ | ⟨-, -, t1, h1, h2⟩
    · exact ⟨t, hrefl, .inr ⟨fn, l, rfl⟩⟩
    rw [hl hq] at h1
    simp only [Bool.false_eq_true, if_false] at h1
    subst h1
    rcases h2 with ⟨k, v, fn, l, hk, hO, rfl⟩ | ⟨ini, -, hF⟩
    · exact ⟨v, hO.writesOnly (fun i hi => by omega), .inr ⟨fn, l, rfl⟩⟩
    · exact ⟨u, hF.toOutOnly.writesOnly (fun i hi => hi), .inl rfl⟩
  case newtonSimpleFFT =>
    rcases dcSimpleFFT_ok h e with ⟨fn, l, rfl⟩ | ⟨-, -, hF⟩
    · exact ⟨t, hrefl, .inr ⟨fn, l, rfl⟩⟩
    · exact ⟨u, hF.toOutOnly.writesOnly (fun i hi => hi), .inl rfl⟩
  case none => cases e; exact ⟨t, hrefl, .inr ⟨_, _, rfl⟩⟩
  all_goals first | exact newton e | exact interp e

/-- **C34** for Fresnel: one more row than the processing range is written (and it holds a
value of the transform, see `C60_fresnel`). -/
theorem C34_fresnel_partial (N : Num Dbl Cpx) (L : Lib) (E : Env) (hE : E.Lawful)
    (t u : TauD) (h : t.err = none) (e : dcFresnel N L (runXf N) E t = .ok u) :
    (∃ fn l, u = t.fail fn l) ∨ WritesOnly t.start (t.start + t.nUsed + 1) t u := by
  rcases dcFresnel_ok (runXf_ignoresOut N) h (hE _) e with ⟨fn, l, rfl⟩ | ⟨-, -, ws, nwMax, -, -, hF⟩
  · exact .inl ⟨fn, l, rfl⟩
  · exact .inr (hF.toOutOnly.writesOnly (fun i hi => hi))

/-- Ten rows with given widths, rows `3, 4, 5` to be processed. -/
def dcTau (psi : Psi) (fwd : Bool) (w : List Dbl) : TauD :=
  { reconTau psi fwd with
    start := 3
    nUsed := 3
    arr := fun f => match f with
      | .w => some w
      | f => (reconTau psi fwd).arr f
    carr := fun f => match f with
      | .tIn => some ((List.range 10).map fun n : Nat => ⟨.fin n, .fin 0⟩)
      | .tOut => some (List.replicate 10 ⟨.fin (-1), .fin 0⟩)
      | _ => none }

/-- Width 4 everywhere. -/
def fours : List Dbl := List.replicate 10 (.fin 4)

/-- **C34** is false for the Fresnel method: row `start + n_used` is overwritten. -/
theorem C34_fresnel_false :
    ¬ ∀ (t u : TauD), t.err = none → t.psinum = .fresnel →
      diffractionCorrection exactNum unitLib (runXf exactNum) ⟨id, id⟩ exampleEnv t = .ok u →
      u.err = none → WritesOnly t.start (t.start + t.nUsed) t u := by
  intro hall
  obtain ⟨u, e, hu⟩ := Res.of_test (x := diffractionCorrection exactNum unitLib (runXf exactNum)
    ⟨id, id⟩ exampleEnv (dcTau .fresnel false fours))
    (p := fun u => u.err == none &&
      ((u.carr .tOut).bind (fun l => l[6]?) != some ⟨.fin (-1), .fin 0⟩)) (by decide +kernel)
  simp only [Bool.and_eq_true, beq_iff_eq, bne_iff_ne] at hu
  obtain ⟨l', a, -, c⟩ := (hall _ u rfl rfl e hu.1).out _ rfl
  have := c 6 (.inr (by decide))
  rw [a] at hu
  exact hu.2 this

/-- **C34** is false for the forward Legendre method: the wavenumbers are changed. -/
theorem C34_legendre_false :
    ¬ ∀ (t u : TauD), t.err = none → t.psinum = .legendre →
      diffractionCorrection exactNum unitLib (runXf exactNum) ⟨id, id⟩ exampleEnv t = .ok u →
      u.err = none → WritesOnly t.start (t.start + t.nUsed) t u := by
  intro hall
  obtain ⟨u, e, hu⟩ := Res.of_test (x := diffractionCorrection exactNum unitLib (runXf exactNum)
    ⟨id, id⟩ exampleEnv { dcTau .legendre true fours with order := 5 })
    (p := fun u => u.err == none && (u.arr .k != some flatV)) (by decide +kernel)
  simp only [Bool.and_eq_true, beq_iff_eq, bne_iff_ne] at hu
  exact hu.2 ((hall _ u rfl rfl e hu.1).arr .k)

/-- Non-vacuity of C34 and C60: for each implemented method there is a run without error
that changes `T_out`. -/
example : ∀ psi ∈ [Psi.newtonRiemann, .newtonFilon12, .ellipticNewton, .newton4, .newton8,
    .legendre, .fresnel], ∃ u, diffractionCorrection exactNum unitLib (runXf exactNum) ⟨id, id⟩
      exampleEnv { dcTau psi false fours with order := 5 } = .ok u ∧ u.err = none ∧
      u.carr .tOut ≠ (dcTau psi false fours).carr .tOut := by
  intro psi hpsi
  obtain ⟨u, e, hu⟩ := Res.of_test (x := diffractionCorrection exactNum unitLib (runXf exactNum)
    ⟨id, id⟩ exampleEnv { dcTau psi false fours with order := 5 })
    (p := fun u => u.err == none && (u.carr .tOut != (dcTau psi false fours).carr .tOut))
    (by revert psi; decide +kernel)
  simp only [Bool.and_eq_true, beq_iff_eq, bne_iff_ne] at hu
  exact ⟨u, e, hu⟩

/-! ### C35 -/

/-- **C35**, inverse direction: the wavenumbers stay what they are. -/
theorem C35_inverse (N : Num Dbl Cpx) (L : Lib) (Z : FFT) (E : Env) (hE : E.Lawful)
    (t u : TauD) (h : t.err = none) (hp : t.psinum = .legendre) (hfwd : t.useFwd = false)
    (e : diffractionCorrection N L (runXf N) Z E t = .ok u) : u.arr .k = t.arr .k := by
  obtain ⟨v, hv, rfl | ⟨fn, l, rfl⟩⟩ := C34_writes_partial N L Z E hE t u h (by simp [hp])
    (fun _ => hfwd) e
  · exact hv.arr .k
  · exact hv.arr .k

/-- **C35** as far as it holds in the forward direction: a successful run negates (by
multiplication with -1) exactly the wavenumbers of rows `0 .. n_used`, and they stay so.
Missing: the rows should be the processed ones, and the change undone. -/
theorem C35_forward_partial (N : Num Dbl Cpx) (E : Env) (t u : TauD) (h : t.err = none)
    (hfwd : t.useFwd = true) (e : dcLegendre N (runXf N) E t = .ok u) (hu : u.err = none) :
    ∃ k k', t.arr .k = some k ∧ u.arr .k = some k' ∧ k'.length = k.length ∧
      t.nUsed < k.length ∧ ∀ i x, k[i]? = some x →
        k'[i]? = some (if i ≤ t.nUsed then N.mul x (N.lit (-1)) else x) := by
  rcases dcLegendre_ok (runXf_ignoresOut N) h e with ⟨fn, l, rfl⟩ | ⟨-, -, t1, h1, h2⟩
  · cases hu
  rw [hfwd] at h1
  simp only [if_true] at h1
  obtain ⟨k, k', a1, rfl, a3, a4, a5⟩ := negateK_ok (by omega) h1
  have harr : u.arr .k = some k' := by
    rcases h2 with ⟨j, v, fn, l, -, -, rfl⟩ | ⟨ini, -, hF⟩
    · cases hu
    · rw [hF.arr]; simp [Tau.setArr]
  refine ⟨k, k', a1, harr, a3, by omega, fun i x hx => ?_⟩
  rw [a5 i x hx]
  simp [Nat.lt_succ_iff]

/-- **C35** is false: after a forward Legendre run the wavenumbers differ, even the one of
row 0, which is not a processed row, while row 5 (processed) was used unnegated. -/
theorem C35_false :
    ¬ ∀ (t u : TauD), t.err = none → t.psinum = .legendre →
      diffractionCorrection exactNum unitLib (runXf exactNum) ⟨id, id⟩ exampleEnv t = .ok u →
      u.err = none → u.arr .k = t.arr .k := by
  intro hall
  obtain ⟨u, e, hu⟩ := Res.of_test (x := diffractionCorrection exactNum unitLib (runXf exactNum)
    ⟨id, id⟩ exampleEnv { dcTau .legendre true fours with order := 5 })
    (p := fun u => u.err == none && ((u.arr .k).bind (fun l => l[0]?) == some (.fin (-1))) &&
      ((u.arr .k).bind (fun l => l[5]?) == some (.fin 1))) (by decide +kernel)
  simp only [Bool.and_eq_true, beq_iff_eq] at hu
  have := hall _ u rfl rfl e hu.1.1
  rw [this] at hu
  exact absurd hu.1.2 (by decide +kernel)

end Verif
