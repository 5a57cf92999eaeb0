import Verif.Proofs.Driver
import Verif.Spec.Driver

/-! What the drivers change: only `T_out`, only at certain entries. -/
namespace Verif

/-- `u` is `t` except for entries `P` of `T_out`. -/
structure OutOnly (P : Nat → Prop) (t u : TauD) : Prop where
  same : u = t.setC .tOut (u.carr .tOut)
  none : t.carr .tOut = Option.none → u.carr .tOut = Option.none
  out : ∀ l, t.carr .tOut = some l → ∃ l', u.carr .tOut = some l' ∧ l'.length = l.length ∧
    ∀ i, ¬ P i → l'[i]? = l[i]?

/-- In addition the entries `P` hold values with `V`. -/
structure Filled (V : Nat → Cpx → Prop) (P : Nat → Prop) (t u : TauD) : Prop
    extends OutOnly P t u where
  vals : ∀ i, P i → ∃ l v, u.carr .tOut = some l ∧ l[i]? = some v ∧ V i v

theorem setC_self (t : TauD) (f : CFld) : t.setC f (t.carr f) = t := by
  cases t with
  | mk arr carr =>
    simp only [Tau.setC]
    congr
    funext g
    split <;> simp_all

@[simp] theorem setC_carr (t : TauD) (f : CFld) (l) : (t.setC f l).carr f = l := by simp [Tau.setC]
theorem setC_carr_ne (t : TauD) {f g : CFld} (l) (h : g ≠ f) : (t.setC f l).carr g = t.carr g := by
  simp [Tau.setC, h]
@[simp] theorem setC_setC (t : TauD) (f : CFld) (a b) : (t.setC f a).setC f b = t.setC f b := by
  simp only [Tau.setC]
  congr
  funext g
  split <;> simp_all

theorem OutOnly.refl (P : Nat → Prop) (t : TauD) : OutOnly P t t where
  same := (setC_self t _).symm
  none := id
  out := fun l h => ⟨l, h, rfl, fun _ _ => rfl⟩

theorem OutOnly.trans {P Q S : Nat → Prop} {t u v : TauD} (h1 : OutOnly P t u)
    (h2 : OutOnly Q u v) (hP : ∀ i, P i → S i) (hQ : ∀ i, Q i → S i) : OutOnly S t v where
  same := by rw [h2.same, h1.same]; simp
  none := fun h => h2.none (h1.none h)
  out := by
    intro l h
    obtain ⟨l1, e1, n1, a1⟩ := h1.out l h
    obtain ⟨l2, e2, n2, a2⟩ := h2.out l1 e1
    exact ⟨l2, e2, by omega, fun i hi => by
      rw [a2 i (fun hq => hi (hQ i hq)), a1 i (fun hp => hi (hP i hp))]⟩

theorem OutOnly.mono {P Q : Nat → Prop} {t u : TauD} (h : OutOnly P t u) (hP : ∀ i, P i → Q i) :
    OutOnly Q t u := h.trans (OutOnly.refl Q u) hP (fun _ h => h)

theorem OutOnly.err {P : Nat → Prop} {t u : TauD} (h : OutOnly P t u) : u.err = t.err := by
  rw [h.same]; rfl
theorem OutOnly.arr {P : Nat → Prop} {t u : TauD} (h : OutOnly P t u) : u.arr = t.arr := by
  rw [h.same]; rfl
theorem OutOnly.start {P : Nat → Prop} {t u : TauD} (h : OutOnly P t u) : u.start = t.start := by
  rw [h.same]; rfl
theorem OutOnly.nUsed {P : Nat → Prop} {t u : TauD} (h : OutOnly P t u) : u.nUsed = t.nUsed := by
  rw [h.same]; rfl

theorem Filled.refl (V : Nat → Cpx → Prop) {P : Nat → Prop} (hP : ∀ i, ¬ P i) (t : TauD) :
    Filled V P t t where
  toOutOnly := OutOnly.refl P t
  vals := fun i h => absurd h (hP i)

/-- Writing `Q` after `P`. -/
theorem Filled.trans {V : Nat → Cpx → Prop} {P Q S : Nat → Prop} {t u v : TauD}
    (h1 : Filled V P t u) (h2 : Filled V Q u v) (hS : ∀ i, S i ↔ P i ∨ Q i) : Filled V S t v where
  toOutOnly := h1.toOutOnly.trans h2.toOutOnly (fun i h => (hS i).2 (.inl h))
    (fun i h => (hS i).2 (.inr h))
  vals := by
    intro i hi
    by_cases hq : Q i
    · exact h2.vals i hq
    · rcases (hS i).1 hi with hp | hq'
      · obtain ⟨l, x, e, e', hv⟩ := h1.vals i hp
        obtain ⟨l2, e2, -, a2⟩ := h2.out l e
        exact ⟨l2, x, e2, by rw [a2 i hq]; exact e', hv⟩
      · exact absurd hq' hq

theorem Filled.congr {V W : Nat → Cpx → Prop} {P Q : Nat → Prop} {t u : TauD} (h : Filled V P t u)
    (hP : ∀ i, P i ↔ Q i) (hV : ∀ i v, P i → V i v → W i v) : Filled W Q t u where
  toOutOnly := h.toOutOnly.mono (fun i hi => (hP i).1 hi)
  vals := fun i hi => by
    obtain ⟨l, v, a, b, c⟩ := h.vals i ((hP i).2 hi)
    exact ⟨l, v, a, b, hV i v ((hP i).2 hi) c⟩

theorem storeOut_ok {i : Nat} {v : Cpx} {t u : TauD} (e : storeOut i v t = .ok u) :
    Filled (fun _ x => x = v) (fun j => j = i) t u ∧
      ∃ l, t.carr .tOut = some l ∧ i < l.length := by
  unfold storeOut at e
  split at e
  · cases e
  rename_i l hl
  rw [Res.bind_eq_ok] at e
  obtain ⟨l', e1, e⟩ := e
  unfold wr at e1
  split at e1
  swap; · cases e1
  rename_i hi
  cases e1; cases e
  refine ⟨⟨⟨by simp, fun h => (by rw [hl] at h; cases h), ?_⟩, ?_⟩, l, hl, hi⟩
  · intro l2 h2
    rw [hl] at h2; cases h2
    refine ⟨l.set i v, by simp, by simp, fun j hj => ?_⟩
    rw [List.getElem?_set_ne (Ne.symm hj)]
  · rintro j rfl
    exact ⟨l.set j v, v, by simp, by simp [hi], rfl⟩

theorem storeOut_total {i : Nat} (v : Cpx) {t : TauD} {l : List Cpx} (h : t.carr .tOut = some l)
    (hi : i < l.length) : ∃ u, storeOut i v t = .ok u := by
  unfold storeOut
  rw [h]
  simp [wr, hi]

/-- `sem` does not look at `T_out`. -/
def IgnoresOut (sem : Sem) : Prop :=
  ∀ f t l x w c nw center, sem f (Tau.setC t .tOut l) x w c nw center = sem f t x w c nw center

theorem runXf_ignoresOut (N : Num Dbl Cpx) : IgnoresOut (runXf N) := by
  intro f t l x w c nw center
  cases f <;> rfl

/-! ### Window buffers -/

theorem computeWindow_ok {N : Num Dbl Cpx} {t : TauD} {buf buf' : List Dbl} {nw c0 : Nat}
    (e : computeWindow N t buf nw c0 = .ok buf') :
    HoldsWindow N t nw c0 buf' ∧ buf'.length = buf.length ∧ nw ≤ buf.length := by
  rw [computeWindow, Res.bind_eq_ok] at e
  obtain ⟨off, e1, e⟩ := e
  unfold subIdx at e1
  split at e1
  swap; · cases e1
  rename_i hle
  cases e1
  have := forRange_partial (σ := List Dbl)
    (fun n b => b.length = buf.length ∧ n ≤ buf.length ∧
      ∀ j, j < n → ∃ r rc wc, rdP (t.arr .rho) (c0 - nw / 2 + j) = .ok r ∧
      rdP (t.arr .rho) c0 = .ok rc ∧ rdP (t.arr .w) c0 = .ok wc ∧
      b[j]? = some (N.winFn t.window (N.sub r rc) wc)) _ nw 0 buf buf'
    ⟨rfl, by omega, fun j hj => by omega⟩ ?_ e
  · rw [Nat.zero_add] at this
    exact ⟨⟨hle, this.2.2⟩, this.1, this.2.1⟩
  · intro n b b' _ hn ⟨hl, hnl, hb⟩ eb
    unfold computeWindowLoop at eb
    rw [Res.bind_eq_ok] at eb
    obtain ⟨r, er, eb⟩ := eb
    rw [Res.bind_eq_ok] at eb
    obtain ⟨rc, erc, eb⟩ := eb
    rw [Res.bind_eq_ok] at eb
    obtain ⟨wc, ewc, eb⟩ := eb
    unfold wr at eb
    split at eb
    swap; · cases eb
    rename_i hlt
    cases eb
    refine ⟨by simpa using hl, by omega, fun j hj => ?_⟩
    by_cases h : j = n
    · subst h
      exact ⟨r, rc, wc, er, erc, ewc, by simp [hlt]⟩
    · obtain ⟨r', rc', wc', q1, q2, q3, q4⟩ := hb j (by omega)
      exact ⟨r', rc', wc', q1, q2, q3, by rw [List.getElem?_set_ne (Ne.symm h)]; exact q4⟩

/-! ### Newton -/

/-- The window in use at row `center` by a thread working on rows `lo ..`: it is the
window of an earlier row `c0` of the same thread (or of the first row of the
processing range), whose width is not `twoDx` or more away. -/
structure NewtonWin (N : Num Dbl Cpx) (t : TauD) (twoDx : Dbl) (nwMax lo center : Nat) (st : WinSt) :
    Prop where
  x : st.x = []
  src : ∃ c0, (c0 = t.start ∨ lo ≤ c0 ∧ c0 ≤ center) ∧ rdP (t.arr .w) c0 = .ok st.wInit ∧
    newtonPts N st.wInit twoDx = .ok st.nw ∧ HoldsWindow N t st.nw c0 st.w
  near : ∃ wc, rdP (t.arr .w) center = .ok wc ∧ ((N.abs (N.sub st.wInit wc)).ge twoDx = false ∨
    st.wInit = wc)
  room : st.w.length = nwMax
  fits : st.nw ≤ nwMax

/-- Meaning of a value stored by the Newton driver. -/
def NewtonVal (N : Num Dbl Cpx) (sem : Sem) (f : Xf) (t : TauD) (twoDx : Dbl) (nwMax lo : Nat)
    (center : Nat) (v : Cpx) : Prop :=
  ∃ st, NewtonWin N t twoDx nwMax lo center st ∧ sem f t [] st.w [] st.nw center = .ok v

theorem newtonThread_ok {N : Num Dbl Cpx} {sem : Sem} (hs : IgnoresOut sem) {f : Xf} {twoDx : Dbl}
    {nwMax : Nat} {c : Nat × Nat} {t u : TauD} (e : newtonThread N sem f twoDx nwMax c t = .ok u) :
    Filled (NewtonVal N sem f t twoDx nwMax (t.start + c.1))
      (fun i => t.start + c.1 ≤ i ∧ i < t.start + c.1 + c.2) t u := by
  rw [newtonThread, Res.bind_eq_ok] at e
  obtain ⟨w0, ew0, e⟩ := e
  rw [Res.bind_eq_ok] at e
  obtain ⟨nw, enw, e⟩ := e
  rw [Res.bind_eq_ok] at e
  obtain ⟨buf, ebuf, e⟩ := e
  rw [Res.bind_eq_ok] at e
  obtain ⟨s, es, e⟩ := e
  cases e
  obtain ⟨hw, hwl, hnw⟩ := computeWindow_ok ebuf
  simp only [rawBuf, List.length_replicate] at hwl hnw
  have := forRange_partial (σ := WinSt × TauD)
    (fun n s => Filled (NewtonVal N sem f t twoDx nwMax (t.start + c.1))
        (fun i => t.start + c.1 ≤ i ∧ i < t.start + n) t s.2 ∧
      s.1.x = [] ∧ s.1.w.length = nwMax ∧ s.1.nw ≤ nwMax ∧
      ∃ c0, (c0 = t.start ∨ t.start + c.1 ≤ c0 ∧ c0 < t.start + n) ∧
        rdP (t.arr .w) c0 = .ok s.1.wInit ∧
        newtonPts N s.1.wInit twoDx = .ok s.1.nw ∧ HoldsWindow N t s.1.nw c0 s.1.w)
    _ c.2 c.1 _ s
    ⟨Filled.refl _ (fun i hi => by omega) t, rfl, hwl, hnw, t.start, .inl rfl, ew0, enw, hw⟩ ?_ es
  · refine this.1.congr (fun i => ?_) (fun i v _ h => h)
    show t.start + c.1 ≤ i ∧ i < t.start + (c.1 + c.2) ↔ _
    rw [Nat.add_assoc]
  · rintro n ⟨st, t1⟩ ⟨st2, t2⟩ hn1 hn2 ⟨hF, hx, hl, hfit, c0, hc0, q1, q2, q3⟩ eb
    have harr := hF.arr
    have hst := hF.start
    simp only at harr hst hx hl hfit hc0 q1 q2 q3 hF
    unfold newtonStep at eb
    simp only [Res.bind_eq_ok] at eb
    obtain ⟨wc, ewc, st', est, v, ev, t3, et3, eb⟩ := eb
    cases eb
    rw [harr, hst] at ewc
    rw [hst] at ev et3
    have hwin : NewtonWin N t twoDx nwMax (t.start + c.1) (t.start + n) st2 := by
      split at est
      · rename_i hge
        simp only [Res.bind_eq_ok] at est
        obtain ⟨nw', enw', buf', ebuf', est⟩ := est
        cases est
        have hcw : computeWindow N t1 st.w nw' (t1.start + n) =
            computeWindow N t st.w nw' (t.start + n) := by
          rw [hst]
          have : computeWindowLoop N t1 = computeWindowLoop N t := by
            funext off ce m b
            rw [computeWindowLoop, computeWindowLoop, harr]
            have : t1.window = t.window := by rw [hF.same]; rfl
            rw [this]
          rw [computeWindow, computeWindow, this]
        rw [hcw] at ebuf'
        obtain ⟨a1, a2, a3⟩ := computeWindow_ok ebuf'
        refine ⟨hx, ⟨t.start + n, .inr ⟨by omega, by omega⟩, ewc, enw', a1⟩, ?_, by simp [a2, hl],
          by simp; omega⟩
        exact ⟨wc, ewc, .inr rfl⟩
      · rename_i hge
        cases est
        refine ⟨hx, ⟨c0, ?_, q1, q2, q3⟩, ?_, hl, hfit⟩
        · rcases hc0 with h | h
          · exact .inl h
          · exact .inr ⟨h.1, by omega⟩
        · exact ⟨wc, ewc, .inl (by simpa using hge)⟩
    obtain ⟨hF2, -⟩ := storeOut_ok et3
    have hv : NewtonVal N sem f t twoDx nwMax (t.start + c.1) (t.start + n) v := by
      refine ⟨st2, hwin, ?_⟩
      rw [hF.same, hs, hwin.x] at ev
      exact ev
    refine ⟨hF.trans (hF2.congr (fun i => Iff.rfl) (fun i w hi hw => ?_)) (fun i => ?_), hwin.x,
      hwin.room, hwin.fits, ?_⟩
    · subst hi; subst hw; exact hv
    · omega
    · obtain ⟨c1, h1, h2⟩ := hwin.src
      refine ⟨c1, ?_, h2⟩
      rcases h1 with h | h
      · exact .inl h
      · exact .inr ⟨h.1, by omega⟩

/-- All threads of a schedule. -/
theorem runThreads_ok {V : Nat → Cpx → Prop} {thread : Nat × Nat → TauD → Res TauD} {t : TauD}
    : ∀ (cs : List (Nat × Nat)), (∀ c ∈ cs, ∀ x u, x = t.setC .tOut (x.carr .tOut) →
        thread c x = .ok u → Filled V (fun i => t.start + c.1 ≤ i ∧ i < t.start + c.1 + c.2) x u) →
      ∀ (x u : TauD), x = t.setC .tOut (x.carr .tOut) →
      runThreads thread cs x = .ok u →
      Filled V (fun i => ∃ c ∈ cs, t.start + c.1 ≤ i ∧ i < t.start + c.1 + c.2) x u := by
  intro cs
  induction cs with
  | nil => intro _ x u _ e; cases e; exact Filled.refl _ (by simp) _
  | cons c cs ih =>
    intro hT x u hx e
    rw [runThreads, Res.bind_eq_ok] at e
    obtain ⟨y, e1, e2⟩ := e
    have h1 := hT c (by simp) x y hx e1
    have hy : y = t.setC .tOut (y.carr .tOut) := by
      have := h1.same
      rw [hx] at this
      simpa using this
    exact h1.trans (ih (fun c hc => hT c (by simp [hc])) y u hy e2) (fun i => by simp)

theorem covers_iff {cs : List (Nat × Nat)} {n : Nat} (h : Covers cs n) (s i : Nat) :
    (∃ c ∈ cs, s + c.1 ≤ i ∧ i < s + c.1 + c.2) ↔ s ≤ i ∧ i < s + n := by
  have hm : ∀ j, j < n ↔ ∃ c ∈ cs, c.1 ≤ j ∧ j < c.1 + c.2 := by
    intro j
    have : j ∈ (cs.flatMap fun c => List.range' c.1 c.2) ↔ j ∈ List.range n := by
      rw [show (cs.flatMap fun c => List.range' c.1 c.2) = List.range n from h]
    rw [List.mem_range, List.mem_flatMap] at this
    simp only [List.mem_range'_1] at this
    exact this.symm
  constructor
  · rintro ⟨c, hc, h1, h2⟩
    have := (hm (i - s)).2 ⟨c, hc, by omega, by omega⟩
    omega
  · rintro ⟨h1, h2⟩
    obtain ⟨c, hc, a, b⟩ := (hm (i - s)).1 (by omega)
    exact ⟨c, hc, by omega, by omega⟩

theorem NewtonVal.setC {N : Num Dbl Cpx} {sem : Sem} (hs : IgnoresOut sem) {f : Xf} {t : TauD} {l}
    {twoDx : Dbl} {nwMax lo center : Nat} {v : Cpx}
    (h : NewtonVal N sem f (t.setC .tOut l) twoDx nwMax lo center v) :
    NewtonVal N sem f t twoDx nwMax lo center v := by
  obtain ⟨st, hw, e⟩ := h
  rw [hs] at e
  exact ⟨st, ⟨hw.x, hw.src, hw.near, hw.room, hw.fits⟩, e⟩

/-- What the body of `Diffraction_Correction_Newton` does: an error without any
change, or every row of the processing range gets a value computed with the window
in use. -/
theorem dcNewton_ok {N : Num Dbl Cpx} {L : Lib} {sem : Sem} (hs : IgnoresOut sem) {E : Env}
    {t u : TauD} (h : t.err = none) (hE : Covers (E.chunks t.nUsed) t.nUsed)
    (e : dcNewton N L sem E t = .ok u) :
    (∃ fn l, u = t.fail fn l) ∨
    (CoreThere t ∧ checkDataRange N t = .ok t ∧
      ∃ f r0 r1 ws nwMax, newtonTable[t.psinum.toNat - Psi.newtonRiemann.toNat]? = some (some f) ∧
      rdP (t.arr .rho) 0 = .ok r0 ∧ rdP (t.arr .rho) 1 = .ok r1 ∧
      rdSlice (t.arr .w) t.start t.nUsed = .ok ws ∧
      newtonPts N (L.arrMax ws) (N.mul (N.lit 2) (N.sub r1 r0)) = .ok nwMax ∧
      Filled (fun i v => ∃ c ∈ E.chunks t.nUsed, t.start + c.1 ≤ i ∧ i < t.start + c.1 + c.2 ∧
          NewtonVal N sem f t (N.mul (N.lit 2) (N.sub r1 r0)) nwMax (t.start + c.1) i v)
        (fun i => t.start ≤ i ∧ i < t.start + t.nUsed) t u) := by
  rcases withChecks_cases N _ h e with h' | ⟨hc, hd, e'⟩
  · exact .inl h'
  clear e
  rename' e' => e
  simp only [Res.bind_eq_ok] at e
  obtain ⟨r1, e1, r0, e0, ws, ews, nwMax, emax, ⟨t', f⟩, esel, e⟩ := e
  have hsel : (∃ fn l, t' = t.fail fn l) ∨ (t' = t ∧
      newtonTable[t.psinum.toNat - Psi.newtonRiemann.toNat]? = some f) := by
    unfold selectNewton at esel
    simp only [h, Option.isSome_none, Bool.false_eq_true, if_false] at esel
    split at esel
    · cases esel; exact .inl ⟨_, _, rfl⟩
    split at esel
    · cases esel; exact .inl ⟨_, _, rfl⟩
    split at esel
    · cases esel; exact .inl ⟨_, _, rfl⟩
    rw [Res.bind_eq_ok] at esel
    obtain ⟨g, eg, esel⟩ := esel
    cases esel
    exact .inr ⟨rfl, rd_eq_ok.1 eg⟩
  rcases hsel with ⟨fn, l, rfl⟩ | ⟨rfl, hf⟩
  · simp only [Tau.fail_err, Option.isSome_some, if_true] at e
    cases e; exact .inl ⟨_, _, rfl⟩
  simp only [h, Option.isSome_none, Bool.false_eq_true, if_false] at e
  cases f with
  | none => cases e; exact .inl ⟨_, _, rfl⟩
  | some f =>
    simp only at e
    split at e
    · cases e; exact .inl ⟨_, _, rfl⟩
    refine .inr ⟨hc, hd, f, r0, r1, ws, nwMax, hf, e0, e1, ews, emax, ?_⟩
    have := runThreads_ok (t := t') (V := fun i v => ∃ c ∈ E.chunks t'.nUsed, t'.start + c.1 ≤ i ∧
        i < t'.start + c.1 + c.2 ∧
          NewtonVal N sem f t' (N.mul (N.lit 2) (N.sub r1 r0)) nwMax (t'.start + c.1) i v)
      (E.chunks t'.nUsed) (fun c hc x u hx ex => ?_) t' u (setC_self t' _).symm e
    · exact this.congr (fun i => covers_iff hE t'.start i) (fun i v _ h => h)
    · have hF := newtonThread_ok hs ex
      have hst : x.start = t'.start := by rw [hx]; rfl
      rw [hst] at hF
      refine hF.congr (fun i => Iff.rfl) (fun i v hi hv => ⟨c, hc, hi.1, hi.2, ?_⟩)
      rw [hx] at hv
      exact hv.setC hs

/-! ### Buffers of the half-window drivers -/

theorem resetWindow_ok {N : Num Dbl Cpx} {sq : Bool} {t : TauD} {nw c0 : Nat}
    {s s' : List Dbl × List Dbl} (e : resetWindow N sq t nw c0 s = .ok s') :
    HoldsHalf N sq t nw c0 s'.1 s'.2 ∧ s'.1.length = s.1.length ∧ s'.2.length = s.2.length := by
  have := forRange_partial (σ := List Dbl × List Dbl)
    (fun n b => b.1.length = s.1.length ∧ b.2.length = s.2.length ∧ n ≤ s.1.length ∧
      n ≤ s.2.length ∧ ∀ j, j < n → ∃ wc, rdP (t.arr .w) c0 = .ok wc ∧
    b.1[j]? = some (if sq then
      N.mul (N.mul (N.sub (N.ofNat j) (N.ofNat nw)) t.dx)
        (N.mul N.piByTwo (N.mul (N.sub (N.ofNat j) (N.ofNat nw)) t.dx))
      else N.mul (N.sub (N.ofNat j) (N.ofNat nw)) t.dx) ∧
    b.2[j]? = some (N.winFn t.window (N.mul (N.sub (N.ofNat j) (N.ofNat nw)) t.dx) wc)) _ nw 0 s s'
    ⟨rfl, rfl, by omega, by omega, fun j hj => by omega⟩ ?_ e
  · rw [Nat.zero_add] at this
    obtain ⟨a, b, c, d, f⟩ := this
    exact ⟨⟨by omega, by omega, f⟩, a, b⟩
  · rintro n ⟨b1, b2⟩ ⟨b1', b2'⟩ _ hn ⟨hl1, hl2, hn1, hn2, hb⟩ eb
    unfold resetLoop at eb
    simp only [Res.bind_eq_ok] at eb
    obtain ⟨xs, ex, wc, ewc, ws, ews, xs2, ex2, eb⟩ := eb
    unfold wr at ex ews ex2
    split at ex
    swap; · cases ex
    rename_i g1
    cases ex
    split at ews
    swap; · cases ews
    rename_i g2
    cases ews
    split at ex2
    swap; · cases ex2
    rename_i g3
    cases ex2
    cases eb
    simp only at hl1 hl2 hb g1 g2
    refine ⟨by simpa using hl1, by simpa using hl2, by omega, by omega, fun j hj => ?_⟩
    by_cases h : j = n
    · subst h
      exact ⟨wc, ewc, by simp [g1], by simp [g2]⟩
    · obtain ⟨wc', q1, q2, q3⟩ := hb j (by omega)
      refine ⟨wc', q1, ?_, ?_⟩
      · rw [← q2]; simp [List.getElem?_set_ne (Ne.symm h)]
      · rw [← q3]; simp [List.getElem?_set_ne (Ne.symm h)]

/-! ### Fresnel -/

/-- The window in use by the Fresnel driver. -/
structure FresnelWin (N : Num Dbl Cpx) (t : TauD) (twoDx wMax : Dbl) (nwMax lo center : Nat)
    (st : WinSt) : Prop where
  src : (st.nw = 0 ∧ st.wInit = N.mul (N.lit (-4)) wMax) ∨
    ∃ c0, lo ≤ c0 ∧ c0 ≤ center ∧ rdP (t.arr .w) c0 = .ok st.wInit ∧
      (N.div st.wInit twoDx).toSize = .ok st.nw ∧ HoldsHalf N true t st.nw c0 st.x st.w
  near : ∃ wc, rdP (t.arr .w) center = .ok wc ∧ ((N.abs (N.sub st.wInit wc)).ge twoDx = false ∨
    st.wInit = wc)
  room : st.x.length = nwMax ∧ st.w.length = nwMax
  fits : st.nw ≤ nwMax

/-- Meaning of a value stored by the Fresnel driver. -/
def FresnelVal (N : Num Dbl Cpx) (sem : Sem) (t : TauD) (twoDx wMax : Dbl) (nwMax lo center : Nat)
    (v : Cpx) : Prop :=
  ∃ st, FresnelWin N t twoDx wMax nwMax lo center st ∧
    sem .fresnel t st.x st.w [] st.nw center = .ok v

theorem resetWindow_congr (N : Num Dbl Cpx) (sq : Bool) {t t' : TauD} (h1 : t'.arr = t.arr)
    (h2 : t'.dx = t.dx) (h3 : t'.window = t.window) : resetWindow N sq t' = resetWindow N sq t := by
  funext nw c s
  have : resetLoop N sq t' nw c = resetLoop N sq t nw c := by
    funext n s
    rw [resetLoop, resetLoop, h1, h2, h3]
  rw [resetWindow, resetWindow, this]

theorem fresnelThread_ok {N : Num Dbl Cpx} {L : Lib} {sem : Sem} (hs : IgnoresOut sem)
    {c : Nat × Nat} {t u : TauD} (e : fresnelThread N L sem c t = .ok u) :
    ∃ ws nwMax, rdSlice (t.arr .w) t.start t.nUsed = .ok ws ∧
      (N.div (L.arrMax ws) (N.mul (N.lit 2) t.dx)).toSize = .ok nwMax ∧
      Filled (FresnelVal N sem t (N.mul (N.lit 2) t.dx) (L.arrMax ws) nwMax (t.start + c.1))
        (fun i => t.start + c.1 ≤ i ∧ i < t.start + c.1 + c.2) t u := by
  rw [fresnelThread, Res.bind_eq_ok] at e
  obtain ⟨ws, ews, e⟩ := e
  rw [Res.bind_eq_ok] at e
  obtain ⟨nwMax, emax, e⟩ := e
  rw [Res.bind_eq_ok] at e
  obtain ⟨s, es, e⟩ := e
  cases e
  refine ⟨ws, nwMax, ews, emax, ?_⟩
  set twoDx := N.mul (N.lit 2) t.dx with htwo
  set wMax := L.arrMax ws with hwM
  have := forRange_partial (σ := WinSt × TauD)
    (fun n s => Filled (FresnelVal N sem t twoDx wMax nwMax (t.start + c.1))
        (fun i => t.start + c.1 ≤ i ∧ i < t.start + n) t s.2 ∧
      s.1.x.length = nwMax ∧ s.1.w.length = nwMax ∧ s.1.nw ≤ nwMax ∧
      ((s.1.nw = 0 ∧ s.1.wInit = N.mul (N.lit (-4)) wMax) ∨
        ∃ c0, t.start + c.1 ≤ c0 ∧ c0 < t.start + n ∧ rdP (t.arr .w) c0 = .ok s.1.wInit ∧
        (N.div s.1.wInit twoDx).toSize = .ok s.1.nw ∧
        HoldsHalf N true t s.1.nw c0 s.1.x s.1.w))
    _ c.2 c.1 _ s
    ⟨Filled.refl _ (fun i hi => by omega) t, by simp [rawBuf], by simp [rawBuf], by simp,
      .inl ⟨rfl, rfl⟩⟩ ?_ es
  · refine this.1.congr (fun i => ?_) (fun i v _ h => h)
    show t.start + c.1 ≤ i ∧ i < t.start + (c.1 + c.2) ↔ _
    rw [Nat.add_assoc]
  · rintro n ⟨st, t1⟩ ⟨st2, t2⟩ hn1 hn2 ⟨hF, hx, hl, hfit, hsrc⟩ eb
    have harr := hF.arr
    have hst := hF.start
    simp only at harr hst hx hl hfit hsrc hF
    unfold fresnelLoop at eb
    simp only [Res.bind_eq_ok] at eb
    obtain ⟨wc, ewc, st', est, v, ev, t3, et3, eb⟩ := eb
    cases eb
    rw [harr, hst] at ewc
    rw [hst] at ev et3
    have hwin : FresnelWin N t twoDx wMax nwMax (t.start + c.1) (t.start + n) st2 := by
      split at est
      · rename_i hge
        simp only [Res.bind_eq_ok] at est
        obtain ⟨nw', enw', b, eb, est⟩ := est
        cases est
        rw [hst, resetWindow_congr N true (t := t) harr (by rw [hF.same]; rfl)
          (by rw [hF.same]; rfl)] at eb
        obtain ⟨a1, a2, a3⟩ := resetWindow_ok eb
        simp only at a2 a3
        refine ⟨.inr ⟨t.start + n, by omega, by omega, ewc, enw', a1⟩, ?_, by simp [a2, a3, hx, hl],
          ?_⟩
        · exact ⟨wc, ewc, .inr rfl⟩
        · have := a1.1
          show nw' ≤ nwMax
          omega
      · rename_i hge
        cases est
        refine ⟨?_, ?_, ⟨hx, hl⟩, hfit⟩
        · rcases hsrc with h | ⟨c0, h1, h2, h3⟩
          · exact .inl h
          · exact .inr ⟨c0, h1, by omega, h3⟩
        · exact ⟨wc, ewc, .inl (by simpa using hge)⟩
    obtain ⟨hF2, -⟩ := storeOut_ok et3
    have hv : FresnelVal N sem t twoDx wMax nwMax (t.start + c.1) (t.start + n) v := by
      refine ⟨st2, hwin, ?_⟩
      rw [hF.same, hs] at ev
      exact ev
    refine ⟨hF.trans (hF2.congr (fun i => Iff.rfl) (fun i w hi hw => ?_)) (fun i => ?_), hwin.room.1,
      hwin.room.2, hwin.fits, ?_⟩
    · subst hi; subst hw; exact hv
    · omega
    · rcases hwin.src with h | ⟨c0, h1, h2, h3⟩
      · exact .inl h
      · exact .inr ⟨c0, h1, by omega, h3⟩

theorem FresnelVal.setC {N : Num Dbl Cpx} {sem : Sem} (hs : IgnoresOut sem) {t : TauD} {l}
    {twoDx wMax : Dbl} {nwMax lo center : Nat} {v : Cpx}
    (h : FresnelVal N sem (t.setC .tOut l) twoDx wMax nwMax lo center v) :
    FresnelVal N sem t twoDx wMax nwMax lo center v := by
  obtain ⟨st, hw, e⟩ := h
  rw [hs] at e
  exact ⟨st, ⟨hw.src, hw.near, hw.room, hw.fits⟩, e⟩

/-- What `Diffraction_Correction_Fresnel` does. -/
theorem dcFresnel_ok {N : Num Dbl Cpx} {L : Lib} {sem : Sem} (hs : IgnoresOut sem) {E : Env}
    {t u : TauD} (h : t.err = none) (hE : Covers (E.chunks (t.nUsed + 1)) (t.nUsed + 1))
    (e : dcFresnel N L sem E t = .ok u) :
    (∃ fn l, u = t.fail fn l) ∨
    (CoreThere t ∧ checkDataRange N t = .ok t ∧ ∃ ws nwMax,
      rdSlice (t.arr .w) t.start t.nUsed = .ok ws ∧
      (N.div (L.arrMax ws) (N.mul (N.lit 2) t.dx)).toSize = .ok nwMax ∧
      Filled (fun i v => ∃ c ∈ E.chunks (t.nUsed + 1), t.start + c.1 ≤ i ∧
          i < t.start + c.1 + c.2 ∧
          FresnelVal N sem t (N.mul (N.lit 2) t.dx) (L.arrMax ws) nwMax (t.start + c.1) i v)
        (fun i => t.start ≤ i ∧ i < t.start + (t.nUsed + 1)) t u) := by
  rcases withChecks_cases N _ h e with h' | ⟨hc, hd, e'⟩
  · exact .inl h'
  clear e
  rename' e' => e
  split at e
  · cases e; exact .inl ⟨_, _, rfl⟩
  refine .inr ⟨hc, hd, ?_⟩
  -- the slice and the maximum are the same for all threads
  have hws : ∃ ws nwMax, rdSlice (t.arr .w) t.start t.nUsed = .ok ws ∧
      (N.div (L.arrMax ws) (N.mul (N.lit 2) t.dx)).toSize = .ok nwMax := by
    cases hcs : E.chunks (t.nUsed + 1) with
    | nil =>
      rw [hcs] at hE
      have := congrArg List.length (show _ = _ from hE)
      simp at this
    | cons c cs =>
      rw [hcs, runThreads, Res.bind_eq_ok] at e
      obtain ⟨y, e1, -⟩ := e
      obtain ⟨ws, nwMax, a, b, -⟩ := fresnelThread_ok hs e1
      exact ⟨ws, nwMax, a, b⟩
  obtain ⟨ws, nwMax, ews, emax⟩ := hws
  refine ⟨ws, nwMax, ews, emax, ?_⟩
  have := runThreads_ok (t := t) (V := fun i v => ∃ c ∈ E.chunks (t.nUsed + 1), t.start + c.1 ≤ i ∧
      i < t.start + c.1 + c.2 ∧
        FresnelVal N sem t (N.mul (N.lit 2) t.dx) (L.arrMax ws) nwMax (t.start + c.1) i v)
    (E.chunks (t.nUsed + 1)) (fun c hc x u hx ex => ?_) t u (setC_self t _).symm e
  · exact this.congr (fun i => covers_iff hE t.start i) (fun i v _ h => h)
  · obtain ⟨ws', nwMax', ews', emax', hF⟩ := fresnelThread_ok hs ex
    have hst : x.start = t.start := by rw [hx]; rfl
    have hdx : x.dx = t.dx := by rw [hx]; rfl
    have hn : x.nUsed = t.nUsed := by rw [hx]; rfl
    have ha : x.arr = t.arr := by rw [hx]; rfl
    rw [ha, hst, hn, ews] at ews'
    cases ews'
    rw [hdx, emax] at emax'
    cases emax'
    rw [hst, hdx] at hF
    refine hF.congr (fun i => Iff.rfl) (fun i v hi hv => ⟨c, hc, hi.1, hi.2, ?_⟩)
    rw [hx] at hv
    exact hv.setC hs

/-! ### The half-window drivers -/

/-- The window in use by the Legendre and interpolated Newton drivers. -/
structure HalfWin (N : Num Dbl Cpx) (t : TauD) (twoDx : Dbl) (lo center : Nat) (st : WinSt) :
    Prop where
  src : ∃ c0, lo ≤ c0 ∧ c0 ≤ center ∧ rdP (t.arr .w) c0 = .ok st.wInit ∧
      (N.div st.wInit twoDx).toSize = .ok st.nw ∧ HoldsHalf N false t st.nw c0 st.x st.w
  near : ∃ wc, rdP (t.arr .w) center = .ok wc ∧ ((N.abs (N.sub st.wInit wc)).ge twoDx = false ∨
    st.wInit = wc)
  room : st.x.length = st.nw ∧ st.w.length = st.nw

theorem halfLoop_ok {N : Num Dbl Cpx} {E : Env} {twoDx : Dbl} {lo : Nat}
    {call : Nat → TauD → WinSt → Res Cpx} {t : TauD}
    (hcall : ∀ c l st, call c (t.setC .tOut l) st = call c t st) :
    ∀ (cnt center : Nat) (st : WinSt) (x u : TauD), x = t.setC .tOut (x.carr .tOut) → lo ≤ center →
      (∃ c0, lo ≤ c0 ∧ c0 ≤ center ∧ rdP (t.arr .w) c0 = .ok st.wInit ∧
        (N.div st.wInit twoDx).toSize = .ok st.nw ∧ HoldsHalf N false t st.nw c0 st.x st.w) →
      (st.x.length = st.nw ∧ st.w.length = st.nw) →
      halfLoop N E twoDx call center cnt st x = .ok u →
      (∃ k v, k < cnt ∧ OutOnly (fun i => center ≤ i ∧ i < center + k) x v ∧
        u = v.fail .resizeHalfWindow 80) ∨
      Filled (fun i v => ∃ st, HalfWin N t twoDx lo i st ∧ call i t st = .ok v)
        (fun i => center ≤ i ∧ i < center + cnt) x u := by
  intro cnt
  induction cnt with
  | zero =>
    intro center st x u _ _ _ _ e
    cases e
    exact .inr (Filled.refl _ (fun i hi => by omega) _)
  | succ cnt ih =>
    intro center st x u hx hlo hsrc hroom e
    have harr : x.arr = t.arr := by rw [hx]; rfl
    rw [halfLoop, Res.bind_eq_ok] at e
    obtain ⟨fl, e1, e⟩ := e
    have hres : (fl = .ret (x.fail .resizeHalfWindow 80)) ∨
        ∃ st', fl = .go st' ∧ HalfWin N t twoDx lo center st' := by
      unfold resizeHalf at e1
      rw [Res.bind_eq_ok] at e1
      obtain ⟨wc, ewc, e1⟩ := e1
      rw [harr] at ewc
      split at e1
      · rw [Res.bind_eq_ok] at e1
        obtain ⟨nw, enw, e1⟩ := e1
        split at e1
        · cases e1
        split at e1
        · cases e1; exact .inl rfl
        rw [Res.bind_eq_ok] at e1
        obtain ⟨b, eb, e1⟩ := e1
        cases e1
        rw [resetWindow_congr N false (t := t) harr (by rw [hx]; rfl) (by rw [hx]; rfl)] at eb
        obtain ⟨a1, a2, a3⟩ := resetWindow_ok eb
        refine .inr ⟨_, rfl, ⟨⟨center, hlo, le_refl _, ewc, enw, a1⟩, ?_, ?_⟩⟩
        · exact ⟨wc, ewc, .inr rfl⟩
        · simp [a2, a3, rawBuf]
      · rename_i hge
        cases e1
        refine .inr ⟨st, rfl, ⟨hsrc, ?_, hroom⟩⟩
        exact ⟨wc, ewc, .inl (by simpa using hge)⟩
    rcases hres with rfl | ⟨st', rfl, hwin⟩
    · cases e
      exact .inl ⟨0, x, by omega, OutOnly.refl _ x, rfl⟩
    · simp only [Res.bind_eq_ok] at e
      obtain ⟨v, ev, y, ey, e⟩ := e
      obtain ⟨hF2, -⟩ := storeOut_ok ey
      have hy : y = t.setC .tOut (y.carr .tOut) := by
        have := hF2.same
        rw [hx] at this
        simpa using this
      rw [hx, hcall] at ev
      have hF3 : Filled (fun i v => ∃ st, HalfWin N t twoDx lo i st ∧ call i t st = .ok v)
          (fun j => j = center) x y :=
        hF2.congr (fun _ => Iff.rfl) (fun i w hi hw => by subst hi; subst hw; exact ⟨st', hwin, ev⟩)
      obtain ⟨c0, h1, h2, h3⟩ := hwin.src
      rcases ih (center + 1) st' y u hy (by omega) ⟨c0, h1, by omega, h3⟩ hwin.room e with
        ⟨k, z, hk, hz, rfl⟩ | hF4
      · refine .inl ⟨k + 1, z, by omega, hF3.toOutOnly.trans hz ?_ ?_, rfl⟩
        · rintro i rfl; omega
        · intro i hi; omega
      · exact .inr (hF3.trans hF4 (fun i => by omega))

theorem halfInit_ok {N : Num Dbl Cpx} {t : TauD} {i : Dbl × WinSt} (e : halfInit N t = .ok i) :
    ∃ w0 r0 r1, rdP (t.arr .w) t.start = .ok w0 ∧ rdP (t.arr .rho) t.start = .ok r0 ∧
      rdP (t.arr .rho) (t.start + 1) = .ok r1 ∧ i.1 = N.mul (N.lit 2) (N.sub r1 r0) ∧
      (N.div w0 i.1).toSize = .ok i.2.nw ∧ i.2.wInit = w0 ∧ i.2.x = rawBuf i.2.nw ∧
      i.2.w = rawBuf i.2.nw := by
  unfold halfInit at e
  simp only [Res.bind_eq_ok] at e
  obtain ⟨w0, e1, r1, e2, r0, e3, nw, e4, e⟩ := e
  cases e
  exact ⟨w0, r0, r1, e1, e3, e2, rfl, e4, rfl, rfl, rfl⟩

/-- Meaning of a value stored by a half-window driver. -/
def HalfVal (N : Num Dbl Cpx) (call : Nat → TauD → WinSt → Res Cpx) (t : TauD) (twoDx : Dbl)
    (center : Nat) (v : Cpx) : Prop :=
  ∃ st, HalfWin N t twoDx t.start center st ∧ call center t st = .ok v

/-- The common part of the half-window drivers after their initialisation. -/
theorem halfDriver_ok {N : Num Dbl Cpx} {E : Env} {call : Nat → TauD → WinSt → Res Cpx}
    {t u : TauD} (hcall : ∀ c l st, call c (t.setC .tOut l) st = call c t st) {i : Dbl × WinSt}
    (ei : halfInit N t = .ok i) {b : List Dbl × List Dbl}
    (eb : resetWindow N false t i.2.nw t.start (i.2.x, i.2.w) = .ok b)
    (e : halfLoop N E i.1 call t.start t.nUsed { i.2 with x := b.1, w := b.2 } t = .ok u) :
    (∃ k v, k < t.nUsed ∧ OutOnly (fun j => t.start ≤ j ∧ j < t.start + k) t v ∧
        u = v.fail .resizeHalfWindow 80) ∨
      Filled (HalfVal N call t i.1) (fun j => t.start ≤ j ∧ j < t.start + t.nUsed) t u := by
  obtain ⟨w0, r0, r1, a1, a2, a3, a4, a5, a6, a7, a8⟩ := halfInit_ok ei
  obtain ⟨b1, b2, b3⟩ := resetWindow_ok eb
  refine halfLoop_ok (lo := t.start) hcall t.nUsed t.start _ t u (setC_self t _).symm (le_refl _)
    ⟨t.start, le_refl _, le_refl _, ?_, ?_, b1⟩ ?_ e
  · rw [a6]; exact a1
  · rw [a6]; exact a5
  · simp only at b2 b3 ⊢
    rw [b2, b3, a7, a8]
    simp [rawBuf]

/-- What `Diffraction_Correction_Polynomial_Newton` does. -/
theorem dcPolyNewton_ok {N : Num Dbl Cpx} {sem : Sem} (hs : IgnoresOut sem) {E : Env}
    {t u : TauD} (h : t.err = none) (e : dcPolyNewton N sem E t = .ok u) :
    (∃ k v fn l, k < t.nUsed + 1 ∧ OutOnly (fun j => t.start ≤ j ∧ j < t.start + k) t v ∧
        u = v.fail fn l) ∨
    (CoreThere t ∧ checkDataRange N t = .ok t ∧ ∃ f i,
      newtonInterpTable[t.psinum.toNat - Psi.newton4.toNat]? = some (some f) ∧
      halfInit N t = .ok i ∧
      Filled (HalfVal N (fun center t st => sem f t st.x st.w [] st.nw center) t i.1)
        (fun j => t.start ≤ j ∧ j < t.start + t.nUsed) t u) := by
  have stop : ∀ fn l, u = t.fail fn l → (∃ k v fn l, k < t.nUsed + 1 ∧
      OutOnly (fun j => t.start ≤ j ∧ j < t.start + k) t v ∧ u = v.fail fn l) :=
    fun fn l hu => ⟨0, t, fn, l, by omega, OutOnly.refl _ t, hu⟩
  rcases withChecks_cases N _ h e with ⟨fn, l, h'⟩ | ⟨hc, hd, e'⟩
  · exact .inl (stop fn l h')
  clear e
  rename' e' => e
  simp only [Res.bind_eq_ok] at e
  obtain ⟨i, ei, ⟨t', f⟩, esel, e⟩ := e
  have hsel : (∃ fn l, t' = t.fail fn l) ∨ (t' = t ∧
      newtonInterpTable[t.psinum.toNat - Psi.newton4.toNat]? = some f) := by
    unfold selectNewtonInterp at esel
    simp only [h, Option.isSome_none, Bool.false_eq_true, if_false] at esel
    split at esel
    · cases esel; exact .inl ⟨_, _, rfl⟩
    split at esel
    · cases esel; exact .inl ⟨_, _, rfl⟩
    split at esel
    · cases esel; exact .inl ⟨_, _, rfl⟩
    rw [Res.bind_eq_ok] at esel
    obtain ⟨g, eg, esel⟩ := esel
    cases esel
    exact .inr ⟨rfl, rd_eq_ok.1 eg⟩
  rcases hsel with ⟨fn, l, rfl⟩ | ⟨hh, hf⟩
  · simp only [Tau.fail_err, Option.isSome_some, if_true] at e
    cases e; exact .inl (stop _ _ rfl)
  rw [hh] at e
  simp only [h, Option.isSome_none, Bool.false_eq_true, if_false] at e
  cases f with
  | none => cases e; exact .inl (stop _ _ rfl)
  | some f =>
    simp only at e
    split at e
    · cases e; exact .inl (stop _ _ rfl)
    rw [Res.bind_eq_ok] at e
    obtain ⟨b, eb, e⟩ := e
    rcases halfDriver_ok (fun c l st => hs f t l st.x st.w [] st.nw c) ei eb e with
      ⟨k, v, hk, hv, hu⟩ | hF
    · exact .inl ⟨k, v, _, _, by omega, hv, hu⟩
    · exact .inr ⟨hc, hd, f, i, hf, ei, hF⟩

/-! ### Legendre -/

theorem setArr_setC (t : TauD) (f : Fld) (g : CFld) (a b) :
    (t.setArr f a).setC g b = (t.setC g b).setArr f a := rfl

@[simp] theorem setArr_arr (t : TauD) (f : Fld) (l) : (t.setArr f l).arr f = l := by
  simp [Tau.setArr]
@[simp] theorem setArr_setArr (t : TauD) (f : Fld) (a b) :
    (t.setArr f a).setArr f b = t.setArr f b := by
  simp only [Tau.setArr]
  congr
  funext g
  split <;> simp_all
theorem setArr_self (t : TauD) (f : Fld) : t.setArr f (t.arr f) = t := by
  cases t with
  | mk arr carr =>
    simp only [Tau.setArr]
    congr
    funext g
    split <;> simp_all

/-- The loop that negates the wavenumbers `0 .. n_used`. -/
theorem negateK_ok {N : Num Dbl Cpx} {t u : TauD} {cnt : Nat} (hcnt : 0 < cnt)
    (e : forRange 0 cnt (negateK N) t = .ok u) :
    ∃ k k', t.arr .k = some k ∧ u = t.setArr .k (some k') ∧ k'.length = k.length ∧
      cnt ≤ k.length ∧
      ∀ i x, k[i]? = some x → k'[i]? = some (if i < cnt then N.mul x (N.lit (-1)) else x) := by
  have hk : ∃ k, t.arr .k = some k := by
    cases hk : t.arr .k with
    | some k => exact ⟨k, rfl⟩
    | none =>
      cases cnt with
      | zero => omega
      | succ c => rw [forRange, negateK, hk] at e; cases e
  obtain ⟨k, hk⟩ := hk
  have := forRange_partial (σ := TauD)
    (fun n s => ∃ k', s = t.setArr .k (some k') ∧ k'.length = k.length ∧ n ≤ k.length ∧
      ∀ i x, k[i]? = some x → k'[i]? = some (if i < n then N.mul x (N.lit (-1)) else x))
    _ cnt 0 t u ⟨k, by rw [← hk, setArr_self], rfl, by omega, fun i x h => by simpa using h⟩ ?_ e
  · rw [Nat.zero_add] at this
    obtain ⟨k', a, b, c, d⟩ := this
    exact ⟨k, k', hk, a, b, c, d⟩
  · rintro n s s' _ hn ⟨k', rfl, hl, hnl, hv⟩ eb
    unfold negateK at eb
    simp only [setArr_arr, rdP_some, Res.bind_eq_ok] at eb
    obtain ⟨x, ex, l, el, eb⟩ := eb
    unfold wr at el
    split at el
    swap; · cases el
    rename_i hlt
    cases el; cases eb
    refine ⟨_, setArr_setArr .., by simpa using hl, by omega, fun i y hy => ?_⟩
    by_cases h : i = n
    · subst h
      have := hv i y hy
      rw [rd_eq_ok, this] at ex
      simp at ex
      subst ex
      simp [hlt]
    · rw [List.getElem?_set_ne (Ne.symm h), hv i y hy]
      have : (i < n ↔ i < n + 1) := by omega
      simp [this]

/-- The transform call of the Legendre driver. -/
def legCall (N : Num Dbl Cpx) (sem : Sem) (v : Leg) (center : Nat) (t : TauD) (st : WinSt) :
    Res Cpx := do
  let c ← legCoeffs N t center
  sem (.leg v) t st.x st.w c st.nw center

/-- What `Diffraction_Correction_Legendre` does; `t1` is the object with the negated
wavenumbers in the forward direction. -/
theorem dcLegendre_ok {N : Num Dbl Cpx} {sem : Sem} (hs : IgnoresOut sem) {E : Env}
    {t u : TauD} (h : t.err = none) (e : dcLegendre N sem E t = .ok u) :
    (∃ fn l, u = t.fail fn l) ∨
    (CoreThere t ∧ checkDataRange N t = .ok t ∧ ∃ t1,
      (if t.useFwd then forRange 0 (t.nUsed + 1) (negateK N) t = .ok t1 else t1 = t) ∧
      ((∃ k v fn l, k < t.nUsed + 1 ∧ OutOnly (fun j => t.start ≤ j ∧ j < t.start + k) t1 v ∧
        u = v.fail fn l) ∨
      ∃ i, halfInit N t1 = .ok i ∧
        Filled (HalfVal N (legCall N sem (legSelect t.order t.useNorm)) t1 i.1)
          (fun j => t.start ≤ j ∧ j < t.start + t.nUsed) t1 u)) := by
  rcases withChecks_cases N _ h e with ⟨fn, l, h'⟩ | ⟨hc, hd, e'⟩
  · exact .inl ⟨fn, l, h'⟩
  clear e
  rename' e' => e
  refine .inr ⟨hc, hd, ?_⟩
  rw [Res.bind_eq_ok] at e
  obtain ⟨t1, et1, e⟩ := e
  have ht1 : (if t.useFwd then forRange 0 (t.nUsed + 1) (negateK N) t = .ok t1 else t1 = t) := by
    split at et1 <;> rename_i hf
    · simpa [hf] using et1
    · cases et1; simp [hf]
  have hst : t1.start = t.start ∧ t1.nUsed = t.nUsed := by
    split at et1
    · obtain ⟨k, k', -, h2, -⟩ := negateK_ok (by omega) et1
      rw [h2]; exact ⟨rfl, rfl⟩
    · cases et1; exact ⟨rfl, rfl⟩
  refine ⟨t1, ht1, ?_⟩
  rw [Res.bind_eq_ok] at e
  obtain ⟨i, ei, e⟩ := e
  split at e
  · cases e
    exact .inl ⟨0, t1, _, _, by omega, OutOnly.refl _ t1, rfl⟩
  rw [Res.bind_eq_ok] at e
  obtain ⟨b, eb, e⟩ := e
  have hcall : ∀ c l st, legCall N sem (legSelect t.order t.useNorm) c (t1.setC .tOut l) st =
      legCall N sem (legSelect t.order t.useNorm) c t1 st := by
    intro c l st
    rw [legCall, legCall]
    have : legCoeffs N (t1.setC .tOut l) c = legCoeffs N t1 c := rfl
    rw [this]
    exact congrArg _ (funext fun c' => hs (.leg (legSelect t.order t.useNorm)) t1 l st.x st.w c'
      st.nw c)
  rcases halfDriver_ok hcall ei eb e with ⟨k, v, hk, hv, hu⟩ | hF
  · rw [hst.1] at hv
    rw [hst.2] at hk
    exact .inl ⟨k, v, _, _, by omega, hv, hu⟩
  · rw [hst.1, hst.2] at hF
    exact .inr ⟨i, ei, hF⟩

/-! ### SimpleFFT -/

theorem dcSimpleFFT_ok {N : Num Dbl Cpx} {Z : FFT} {E : Env} {t u : TauD} (h : t.err = none)
    (e : dcSimpleFFT N Z E t = .ok u) :
    (∃ fn l, u = t.fail fn l) ∨
    (CoreThere t ∧ checkDataRange N t = .ok t ∧
      Filled (fun _ _ => True) (fun j => t.start ≤ j ∧ j < t.start + t.nUsed) t u) := by
  rcases withChecks_cases N _ h e with ⟨fn, l, h'⟩ | ⟨hc, hd, e'⟩
  · exact .inl ⟨fn, l, h'⟩
  clear e
  rename' e' => e
  unfold simpleFFTBody at e
  simp only [Res.bind_eq_ok] at e
  obtain ⟨w0, -, half, -, size, -, e⟩ := e
  split at e
  · cases e; exact .inl ⟨_, _, rfl⟩
  simp only [Res.bind_eq_ok] at e
  obtain ⟨st, -, ps, -, e⟩ := e
  refine .inr ⟨hc, hd, ?_⟩
  have := forRange_partial (σ := TauD)
    (fun n s => Filled (fun _ _ => True) (fun j => t.start ≤ j ∧ j < t.start + n) t s)
    _ t.nUsed 0 t u (Filled.refl _ (fun i hi => by omega) t) ?_ e
  · rwa [Nat.zero_add] at this
  · intro n s s' _ _ hF eb
    unfold fftStore at eb
    rw [Res.bind_eq_ok] at eb
    obtain ⟨v, -, eb⟩ := eb
    rw [hF.start] at eb
    obtain ⟨hF2, -⟩ := storeOut_ok eb
    refine hF.trans (hF2.congr (fun _ => Iff.rfl) (fun _ _ _ _ => trivial)) (fun i => ?_)
    omega

end Verif
