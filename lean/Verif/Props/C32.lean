import Verif.Props.C34

/-!
# C32: does the OpenMP schedule matter?

The other drivers have no parallel region; they do not take the schedule at all.
-/
namespace Verif
open Spec

/-- Fill the rows `s + n` for `n` in a list, one after the other. -/
def storeAll (g : Nat → Res Cpx) (s : Nat) : List Nat → TauD → Res TauD
  | [], t => .ok t
  | n :: ns, t => do
    let v ← g n
    let t ← storeOut (s + n) v t
    storeAll g s ns t

theorem storeAll_append (g : Nat → Res Cpx) (s : Nat) : ∀ (a b : List Nat) (t : TauD),
    storeAll g s (a ++ b) t = (storeAll g s a t >>= storeAll g s b)
  | [], b, t => rfl
  | n :: a, b, t => by
    simp only [List.cons_append, storeAll, Res.bind_assoc]
    congr 1; funext v; congr 1; funext u
    exact storeAll_append g s a b u

theorem storeOut_setC {i : Nat} {v : Cpx} {t x y : TauD} (hx : x = t.setC .tOut (x.carr .tOut))
    (e : storeOut i v x = .ok y) : y = t.setC .tOut (y.carr .tOut) := by
  have := (storeOut_ok e).1.same
  rw [hx] at this
  simpa using this

/-- Threads that all use the same values: the schedule does not matter. -/
theorem runThreads_eq {I : Type} {thread : Nat × Nat → TauD → Res TauD} {t : TauD} (init : Res I)
    (g : I → Nat → Res Cpx) :
    ∀ (cs : List (Nat × Nat)), (∀ c ∈ cs, ∀ x, x = t.setC .tOut (x.carr .tOut) →
        thread c x = (init >>= fun st => storeAll (g st) t.start (List.range' c.1 c.2) x)) →
      ∀ (x : TauD), x = t.setC .tOut (x.carr .tOut) → cs ≠ [] →
      runThreads thread cs x = (init >>= fun st => storeAll (g st) t.start
        (cs.flatMap fun c => List.range' c.1 c.2) x) := by
  have hset : ∀ (st : I) (l : List Nat) (x y : TauD), x = t.setC .tOut (x.carr .tOut) →
      storeAll (g st) t.start l x = .ok y → y = t.setC .tOut (y.carr .tOut) := by
    intro st l
    induction l with
    | nil => intro x y hx e; cases e; exact hx
    | cons n l ih =>
      intro x y hx e
      simp only [storeAll, Res.bind_eq_ok] at e
      obtain ⟨v, -, z, hz, e⟩ := e
      exact ih z y (storeOut_setC hx hz) e
  intro cs
  induction cs with
  | nil => intro _ x _ h; exact absurd rfl h
  | cons c cs ih =>
    intro hT x hx _
    rw [runThreads, hT c (by simp) x hx]
    cases init with
    | ub w => rfl
    | ok st =>
      simp only [Res.ok_bind] at ih hT ⊢
      by_cases hcs : cs = []
      · subst hcs
        simp only [runThreads, List.flatMap_cons, List.flatMap_nil, List.append_nil]
        cases storeAll (g st) t.start (List.range' c.1 c.2) x <;> rfl
      · rw [List.flatMap_cons, storeAll_append]
        cases e : storeAll (g st) t.start (List.range' c.1 c.2) x with
        | ub w => rfl
        | ok y =>
          rw [Res.ok_bind, Res.ok_bind]
          exact ih (fun c hc x hx => hT c (by simp [hc]) x hx) y (hset st _ x y hx e) hcs

/-- The chunks of a schedule that covers at least one index: there is one, and all lie
inside. -/
theorem covers_chunks {cs : List (Nat × Nat)} {n : Nat} (h : Covers cs n) (hn : 0 < n) :
    cs ≠ [] ∧ ∀ c ∈ cs, ∀ i, c.1 ≤ i → i < c.1 + c.2 → i < n := by
  constructor
  · rintro rfl
    have := congrArg List.length (show _ = _ from h)
    simp at this
    omega
  · intro c hc i h1 h2
    have := (covers_iff h 0 i).1 ⟨c, hc, by omega, by omega⟩
    omega

/-! ### Newton -/

/-- The window that a thread starts with. -/
def newtonInit (N : Num Dbl Cpx) (t : TauD) (twoDx : Dbl) (nwMax : Nat) : Res WinSt := do
  let w0 ← rdP (t.arr .w) t.start
  let nw ← newtonPts N w0 twoDx
  let buf ← computeWindow N t (rawBuf nwMax) nw t.start
  .ok { wInit := w0, nw := nw, x := [], w := buf }

/-- The value of a row with a fixed window. -/
def fixedVal (sem : Sem) (f : Xf) (t : TauD) (st : WinSt) (n : Nat) : Res Cpx := do
  let _ ← rdP (t.arr .w) (t.start + n)
  sem f t st.x st.w [] st.nw (t.start + n)

theorem newtonLoop_fixed {N : Num Dbl Cpx} {sem : Sem} (hs : IgnoresOut sem) {f : Xf} {twoDx : Dbl}
    {t : TauD} {st : WinSt} : ∀ (cnt lo : Nat) (x : TauD), x = t.setC .tOut (x.carr .tOut) →
      (∀ n wc, lo ≤ n → n < lo + cnt → rdP (t.arr .w) (t.start + n) = .ok wc →
        (N.abs (N.sub st.wInit wc)).ge twoDx = false) →
      (forRange lo cnt (newtonStep N sem f twoDx) (st, x) >>= fun s => Res.ok s.2) =
        storeAll (fixedVal sem f t st) t.start (List.range' lo cnt) x := by
  intro cnt
  induction cnt with
  | zero => intro lo x _ _; rfl
  | succ cnt ih =>
    intro lo x hx hnear
    have harr : x.arr = t.arr := by rw [hx]; rfl
    have hst : x.start = t.start := by rw [hx]; rfl
    rw [forRange, List.range'_succ, storeAll, fixedVal, newtonStep]
    simp only [Res.bind_assoc, harr, hst]
    cases hw : rdP (t.arr .w) (t.start + lo) with
    | ub w => rfl
    | ok wc =>
      simp only [Res.ok_bind, hnear lo wc (le_refl _) (by omega) hw, Bool.false_eq_true, if_false]
      have hv : sem f x st.x st.w [] st.nw (t.start + lo) =
          sem f t st.x st.w [] st.nw (t.start + lo) := by
        rw [hx]; exact hs ..
      rw [hv]
      cases sem f t st.x st.w [] st.nw (t.start + lo) with
      | ub w => rfl
      | ok v =>
        simp only [Res.ok_bind]
        cases hy : storeOut (t.start + lo) v x with
        | ub w => rfl
        | ok y =>
          simp only [Res.ok_bind]
          exact ih (lo + 1) y (storeOut_setC hx hy)
            (fun n wc h1 h2 => hnear n wc (by omega) (by omega))

/-- **C32** for Newton as far as it holds: if every processed row's width is less than two
samples away from the width of the first one, all schedules give the same result (also the
same error or undefined behaviour).  Missing: other width profiles (`C32_newton_false`). -/
theorem C32_newton_partial (N : Num Dbl Cpx) (L : Lib) (E E' : Env) (hE : E.Lawful)
    (hE' : E'.Lawful) (hmem : E'.mem = E.mem) (t : TauD) (hn : 0 < t.nUsed)
    (hnear : ∀ twoDx w0 wi i, FirstSpacing N t 0 twoDx → InRange t i →
      rdP (t.arr .w) t.start = .ok w0 → rdP (t.arr .w) i = .ok wi →
      (N.abs (N.sub w0 wi)).ge twoDx = false) :
    dcNewton N L (runXf N) E' t = dcNewton N L (runXf N) E t := by
  have hs := runXf_ignoresOut N
  by_cases h : t.err = none
  swap
  · rw [dcNewton, dcNewton, withChecks_err _ _ h, withChecks_err _ _ h]
  refine withChecks_congr N h ?_
  cases h1 : rdP (t.arr .rho) 1 with
  | ub w => rfl
  | ok r1 =>
    cases h0 : rdP (t.arr .rho) 0 with
    | ub w => rfl
    | ok r0 =>
      simp only [Res.ok_bind]
      congr 1; funext ws; congr 1; funext nwMax
      cases hsel : selectNewton t with
      | ub w => rfl
      | ok p =>
        obtain ⟨t', f⟩ := p
        simp only [Res.ok_bind]
        have ht' : t'.err = none → t' = t := by
          intro hn
          unfold selectNewton at hsel
          simp only [h, Option.isSome_none, Bool.false_eq_true, if_false] at hsel
          split at hsel
          · cases hsel; cases hn
          split at hsel
          · cases hsel; cases hn
          split at hsel
          · cases hsel; cases hn
          rw [Res.bind_eq_ok] at hsel
          obtain ⟨g, -, hsel⟩ := hsel
          cases hsel; rfl
        by_cases he : t'.err = none
        swap
        · simp [isSome_of_err he]
        obtain rfl := ht' he
        simp only [h, Option.isSome_none, Bool.false_eq_true, if_false]
        cases f with
        | none => rfl
        | some f =>
          simp only [hmem]
          split
          · rfl
          have key : ∀ F : Env, F.Lawful →
              runThreads (newtonThread N (runXf N) f (N.mul (N.lit 2) (N.sub r1 r0)) nwMax)
                (F.chunks t'.nUsed) t' =
              (newtonInit N t' (N.mul (N.lit 2) (N.sub r1 r0)) nwMax >>= fun st =>
                storeAll (fixedVal (runXf N) f t' st) t'.start (List.range t'.nUsed) t') := by
            intro F hF
            obtain ⟨hc1, hc2⟩ := covers_chunks (hF t'.nUsed) hn
            rw [← show _ = _ from hF t'.nUsed]
            refine runThreads_eq (t := t') _ _ _ (fun c hc x hx => ?_) t' (setC_self t' _).symm hc1
            have harr : x.arr = t'.arr := by rw [hx]; rfl
            have hst : x.start = t'.start := by rw [hx]; rfl
            rw [newtonThread, newtonInit]
            have hcw : computeWindow N x = computeWindow N t' := by
              rw [hx]; rfl
            simp only [Res.bind_assoc, harr, hst, hcw]
            cases hw0 : rdP (t'.arr .w) t'.start with
            | ub w => rfl
            | ok w0 =>
              simp only [Res.ok_bind]
              congr 1; funext nw; congr 1; funext buf
              exact newtonLoop_fixed hs c.2 c.1 x hx (fun n wc a b hwc =>
                hnear _ w0 wc (t'.start + n) (FirstSpacing.of_rdP h0 h1)
                  ⟨by omega, by have := hc2 c hc n a b; omega⟩ hw0 hwc)
          rw [key E' hE', key E hE]

/-- Ten widths: 4, but 6 and 5 in the second and third processed row. -/
def bumpW : List Dbl := [.fin 4, .fin 4, .fin 4, .fin 4, .fin 6, .fin 5, .fin 4, .fin 4, .fin 4,
  .fin 4]

/-- One thread per processed row. -/
def threeThreads : Env := { exampleEnv with chunks := fun n => (List.range n).map fun i => (i, 1) }

theorem threeThreads_lawful : threeThreads.Lawful := by
  intro n
  simp [Covers, threeThreads, List.flatMap_map, List.range'_one, List.flatMap_singleton']

/-- **C32** is false for Newton: with widths 4, 6, 5 (and a sample spacing of 1) the third
processed row uses the window of the second one if both are done by the same thread, and
that of the first one otherwise. -/
theorem C32_newton_false :
    ¬ ∀ (E E' : Env) (t u u' : TauD), E.Lawful → E'.Lawful → E'.mem = E.mem → t.err = none →
      dcNewton exactNum unitLib (runXf exactNum) E t = .ok u →
      dcNewton exactNum unitLib (runXf exactNum) E' t = .ok u' →
      u.err = none → u'.err = none → u.carr .tOut = u'.carr .tOut := by
  intro hall
  obtain ⟨u, e, hu⟩ := Res.of_test (x := dcNewton exactNum unitLib (runXf exactNum) exampleEnv
    { dcTau .newtonRiemann false bumpW with useNorm := false })
    (p := fun u => u.err == none && ((u.carr .tOut).bind (·[5]?) == some ⟨.fin 27, .fin 0⟩))
    (by decide +kernel)
  obtain ⟨u', e', hu'⟩ := Res.of_test (x := dcNewton exactNum unitLib (runXf exactNum) threeThreads
    { dcTau .newtonRiemann false bumpW with useNorm := false })
    (p := fun u => u.err == none && ((u.carr .tOut).bind (·[5]?) == some ⟨.fin 18, .fin 0⟩))
    (by decide +kernel)
  simp only [Bool.and_eq_true, beq_iff_eq] at hu hu'
  have := hall _ _ _ u u' exampleEnv_lawful threeThreads_lawful rfl rfl e e' hu.1 hu'.1
  rw [this, hu'.2] at hu
  exact absurd hu.2 (by decide +kernel)

/-- Widths that grow slowly: 4, 4.1, ... -/
def slopeW : List Dbl := (List.range 10).map fun n : Nat => Dbl.fin (4 + (n : ℚ) / 10)

/-- Non-vacuity of `C32_newton_partial`: two schedules, widths that are not all equal, and
a result without error. -/
example : (∃ u, dcNewton exactNum unitLib (runXf exactNum) threeThreads
      (dcTau .newtonRiemann false slopeW) = .ok u ∧ u.err = none) ∧
    ∀ twoDx w0 wi i, FirstSpacing exactNum (dcTau .newtonRiemann false slopeW) 0 twoDx →
      InRange (dcTau .newtonRiemann false slopeW) i →
      rdP ((dcTau .newtonRiemann false slopeW).arr .w) 3 = .ok w0 →
      rdP ((dcTau .newtonRiemann false slopeW).arr .w) i = .ok wi →
      (exactNum.abs (exactNum.sub w0 wi)).ge twoDx = false := by
  constructor
  · obtain ⟨u, e, hu⟩ := Res.of_test (x := dcNewton exactNum unitLib (runXf exactNum) threeThreads
      (dcTau .newtonRiemann false slopeW)) (p := fun u => u.err == none) (by decide +kernel)
    exact ⟨u, e, by simpa using hu⟩
  rintro twoDx w0 wi i ⟨rho, r0, r1, h1, h2, h3, rfl⟩ ⟨hi1, hi2⟩ hw0 hwi
  cases h1; cases h2; cases h3
  have hi : i = 3 ∨ i = 4 ∨ i = 5 := by
    have : (3 : Nat) ≤ i := hi1
    have : i < 3 + 3 := hi2
    omega
  change rd slopeW 3 = _ at hw0
  change rd slopeW i = _ at hwi
  rw [rd_eq_ok] at hw0 hwi
  obtain rfl : Dbl.fin (4 + ((3 : Nat) : ℚ) / 10) = w0 := by simpa [slopeW] using hw0
  rcases hi with rfl | rfl | rfl
  · obtain rfl : Dbl.fin (4 + ((3 : Nat) : ℚ) / 10) = wi := by simpa [slopeW] using hwi
    decide +kernel
  · obtain rfl : Dbl.fin (4 + ((4 : Nat) : ℚ) / 10) = wi := by simpa [slopeW] using hwi
    decide +kernel
  · obtain rfl : Dbl.fin (4 + ((5 : Nat) : ℚ) / 10) = wi := by simpa [slopeW] using hwi
    decide +kernel

/-! ### Fresnel -/

theorem resetWindow_row (N : Num Dbl Cpx) (sq : Bool) (t : TauD) (nw c c' : Nat)
    (h : rdP (t.arr .w) c = rdP (t.arr .w) c') : resetWindow N sq t nw c = resetWindow N sq t nw c' := by
  have : resetLoop N sq t nw c = resetLoop N sq t nw c' := by
    funext n s
    rw [resetLoop, resetLoop, h]
  funext s
  rw [resetWindow, resetWindow, this]

/-- The window in use when all widths are `w0`. -/
def fresnelFixed (N : Num Dbl Cpx) (t : TauD) (w0 wMax : Dbl) (nwMax : Nat) : Res WinSt :=
  if (N.abs (N.sub (N.mul (N.lit (-4)) wMax) w0)).ge (N.mul (N.lit 2) t.dx) then do
    let nw ← (N.div w0 (N.mul (N.lit 2) t.dx)).toSize
    let b ← resetWindow N true t nw t.start (rawBuf nwMax, rawBuf nwMax)
    .ok { wInit := w0, nw := nw, x := b.1, w := b.2 : WinSt }
  else .ok { wInit := N.mul (N.lit (-4)) wMax, nw := 0, x := rawBuf nwMax, w := rawBuf nwMax }

/-- The value of a row. -/
def fresnelRow (N : Num Dbl Cpx) (sem : Sem) (t : TauD) (w0 wMax : Dbl) (nwMax n : Nat) : Res Cpx := do
  let st ← fresnelFixed N t w0 wMax nwMax
  sem .fresnel t st.x st.w [] st.nw (t.start + n)

theorem fresnelLoop_fixed {N : Num Dbl Cpx} {sem : Sem} (hs : IgnoresOut sem)
    {t : TauD} {st : WinSt} {w0 wMax : Dbl} {nwMax : Nat}
    (hst0 : fresnelFixed N t w0 wMax nwMax = .ok st)
    (hge : (N.abs (N.sub st.wInit w0)).ge (N.mul (N.lit 2) t.dx) = false) :
    ∀ (cnt lo : Nat) (x : TauD), x = t.setC .tOut (x.carr .tOut) →
      (∀ n, lo ≤ n → n < lo + cnt → rdP (t.arr .w) (t.start + n) = .ok w0) →
      (forRange lo cnt (fresnelLoop N sem (N.mul (N.lit 2) t.dx)) (st, x) >>= fun s => Res.ok s.2) =
        storeAll (fresnelRow N sem t w0 wMax nwMax) t.start (List.range' lo cnt) x := by
  intro cnt
  induction cnt with
  | zero => intro lo x _ _; rfl
  | succ cnt ih =>
    intro lo x hx hw
    have harr : x.arr = t.arr := by rw [hx]; rfl
    have hst : x.start = t.start := by rw [hx]; rfl
    rw [forRange, List.range'_succ, storeAll, fresnelRow, fresnelLoop, hst0]
    simp only [Res.bind_assoc, harr, hst]
    rw [hw lo (le_refl _) (by omega)]
    simp only [Res.ok_bind, hge, Bool.false_eq_true, if_false]
    have hv : sem .fresnel x st.x st.w [] st.nw (t.start + lo) =
        sem .fresnel t st.x st.w [] st.nw (t.start + lo) := by
      rw [hx]; exact hs ..
    rw [hv]
    cases sem .fresnel t st.x st.w [] st.nw (t.start + lo) with
    | ub w => rfl
    | ok v =>
      simp only [Res.ok_bind]
      cases hy : storeOut (t.start + lo) v x with
      | ub w => rfl
      | ok y =>
        simp only [Res.ok_bind]
        exact ih (lo + 1) y (storeOut_setC hx hy) (fun n h1 h2 => hw n (by omega) (by omega))

/-- **C32** for Fresnel as far as it holds: if all widths (of the processed rows and of the
row behind them) are the same, all schedules give the same result.
Missing: other width profiles (`C32_fresnel_false`). -/
theorem C32_fresnel_partial (N : Num Dbl Cpx) (L : Lib) (E E' : Env) (hE : E.Lawful)
    (hE' : E'.Lawful) (hmem : E'.mem = E.mem) (t : TauD) (w0 : Dbl)
    (hw : ∀ i, t.start ≤ i → i ≤ t.start + t.nUsed → rdP (t.arr .w) i = .ok w0)
    (h0 : (N.abs (N.sub w0 w0)).ge (N.mul (N.lit 2) t.dx) = false) :
    dcFresnel N L (runXf N) E' t = dcFresnel N L (runXf N) E t := by
  have hs := runXf_ignoresOut N
  by_cases h : t.err = none
  swap
  · rw [dcFresnel, dcFresnel, withChecks_err _ _ h, withChecks_err _ _ h]
  refine withChecks_congr N h ?_
  simp only [hmem]
  split
  · rfl
  have key : ∀ F : Env, F.Lawful →
      runThreads (fresnelThread N L (runXf N)) (F.chunks (t.nUsed + 1)) t =
      ((do let ws ← rdSlice (t.arr .w) t.start t.nUsed
           let nwMax ← (N.div (L.arrMax ws) (N.mul (N.lit 2) t.dx)).toSize
           .ok (L.arrMax ws, nwMax) : Res (Dbl × Nat)) >>= fun p =>
        storeAll (fresnelRow N (runXf N) t w0 p.1 p.2) t.start (List.range (t.nUsed + 1)) t) := by
    intro F hF
    obtain ⟨hc1, hc2⟩ := covers_chunks (hF (t.nUsed + 1)) (by omega)
    rw [← show _ = _ from hF (t.nUsed + 1)]
    refine runThreads_eq (t := t) _ (fun p : Dbl × Nat => fresnelRow N (runXf N) t w0 p.1 p.2) _
      (fun c hc x hx => ?_) t (setC_self t _).symm hc1
    have harr : x.arr = t.arr := by rw [hx]; rfl
    have hst : x.start = t.start := by rw [hx]; rfl
    have hdx : x.dx = t.dx := by rw [hx]; rfl
    have hnu : x.nUsed = t.nUsed := by rw [hx]; rfl
    rw [fresnelThread]
    simp only [Res.bind_assoc, harr, hst, hdx, hnu]
    congr 1; funext ws; congr 1; funext nwMax
    simp only [Res.ok_bind]
    have hwc : ∀ n, c.1 ≤ n → n < c.1 + c.2 → rdP (t.arr .w) (t.start + n) = .ok w0 :=
      fun n a b => hw _ (by omega) (by have := hc2 c hc n a b; omega)
    by_cases hge : (N.abs (N.sub (N.mul (N.lit (-4)) (L.arrMax ws)) w0)).ge
        (N.mul (N.lit 2) t.dx) = true
    swap
    · refine fresnelLoop_fixed hs (by rw [fresnelFixed, if_neg hge]) (by simpa using hge)
        c.2 c.1 x hx hwc
    -- the first row computes the window
    obtain ⟨lo, cnt⟩ := c
    simp only at hwc ⊢
    cases cnt with
    | zero => rfl
    | succ cnt =>
      have h1 := hwc lo (le_refl _) (by omega)
      have hff : fresnelFixed N t w0 (L.arrMax ws) nwMax = (do
          let nw ← (N.div w0 (N.mul (N.lit 2) t.dx)).toSize
          let b ← resetWindow N true t nw t.start (rawBuf nwMax, rawBuf nwMax)
          .ok { wInit := w0, nw := nw, x := b.1, w := b.2 : WinSt }) := by
        rw [fresnelFixed, if_pos hge]
      have hrw : ∀ nw, resetWindow N true x nw (t.start + lo) = resetWindow N true t nw t.start := by
        intro nw
        rw [resetWindow_congr N true harr hdx (by rw [hx]; rfl)]
        exact resetWindow_row N true t nw _ _ (by rw [h1, hw t.start (by omega) (by omega)])
      rw [forRange, List.range'_succ, storeAll, fresnelRow, fresnelLoop]
      simp only [Res.bind_assoc, harr, hst, h1, Res.ok_bind, hge, if_true, hff, hrw]
      cases hnw : (N.div w0 (N.mul (N.lit 2) t.dx)).toSize with
      | ub w => rfl
      | ok nw =>
        simp only [Res.ok_bind]
        cases hb : resetWindow N true t nw t.start (rawBuf nwMax, rawBuf nwMax) with
        | ub w => rfl
        | ok b =>
          simp only [Res.ok_bind]
          have hv : runXf N .fresnel x b.1 b.2 [] nw (t.start + lo) =
              runXf N .fresnel t b.1 b.2 [] nw (t.start + lo) := by
            rw [hx]; exact hs ..
          rw [hv]
          cases runXf N .fresnel t b.1 b.2 [] nw (t.start + lo) with
          | ub w => rfl
          | ok v =>
            simp only [Res.ok_bind]
            cases hy : storeOut (t.start + lo) v x with
            | ub w => rfl
            | ok y =>
              simp only [Res.ok_bind]
              refine fresnelLoop_fixed hs ?_ h0 cnt (lo + 1) y (storeOut_setC hx hy)
                (fun n a b => hwc n (by omega) (by omega))
              rw [hff, hnw, Res.ok_bind, hb, Res.ok_bind]
  rw [key E' hE', key E hE]

/-- **C32** is false for Fresnel, with the same widths. -/
theorem C32_fresnel_false :
    ¬ ∀ (E E' : Env) (t u u' : TauD), E.Lawful → E'.Lawful → E'.mem = E.mem → t.err = none →
      dcFresnel exactNum unitLib (runXf exactNum) E t = .ok u →
      dcFresnel exactNum unitLib (runXf exactNum) E' t = .ok u' →
      u.err = none → u'.err = none → u.carr .tOut = u'.carr .tOut := by
  intro hall
  obtain ⟨u, e, hu⟩ := Res.of_test (x := dcFresnel exactNum unitLib (runXf exactNum) exampleEnv
    { dcTau .fresnel false bumpW with useNorm := false })
    (p := fun u => u.err == none && ((u.carr .tOut).bind (·[5]?) == some ⟨.fin (35/2), .fin (35/2)⟩))
    (by decide +kernel)
  obtain ⟨u', e', hu'⟩ := Res.of_test (x := dcFresnel exactNum unitLib (runXf exactNum) threeThreads
    { dcTau .fresnel false bumpW with useNorm := false })
    (p := fun u => u.err == none && ((u.carr .tOut).bind (·[5]?) == some ⟨.fin (25/2), .fin (25/2)⟩))
    (by decide +kernel)
  simp only [Bool.and_eq_true, beq_iff_eq] at hu hu'
  have := hall _ _ _ u u' exampleEnv_lawful threeThreads_lawful rfl rfl e e' hu.1 hu'.1
  rw [this, hu'.2] at hu
  exact absurd hu.2 (by decide +kernel)

/-- Non-vacuity of `C32_fresnel_partial`. -/
example : (∃ u, dcFresnel exactNum unitLib (runXf exactNum) threeThreads
      (dcTau .fresnel false fours) = .ok u ∧ u.err = none) ∧
    (∀ i, 3 ≤ i → i ≤ 3 + 3 → rdP ((dcTau .fresnel false fours).arr .w) i = .ok (Dbl.fin 4)) ∧
    (exactNum.abs (exactNum.sub (.fin 4) (.fin 4))).ge (exactNum.mul (exactNum.lit 2)
      (dcTau .fresnel false fours).dx) = false := by
  refine ⟨?_, ?_, by decide +kernel⟩
  · obtain ⟨u, e, hu⟩ := Res.of_test (x := dcFresnel exactNum unitLib (runXf exactNum) threeThreads
      (dcTau .fresnel false fours)) (p := fun u => u.err == none) (by decide +kernel)
    exact ⟨u, e, by simpa using hu⟩
  · intro i h1 h2
    have : i = 3 ∨ i = 4 ∨ i = 5 ∨ i = 6 := by omega
    rcases this with rfl | rfl | rfl | rfl <;> decide +kernel

end Verif
