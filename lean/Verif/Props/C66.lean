import Verif.Props.C57
import Verif.Props.C13

/-!
# C66 The constructor of `DiffractionCorrection`
-/
namespace Verif

namespace Spec

/-- The documented values of `psitype` (`u` reads a number), with the method and the order of the Legendre expansion; `ord` is
the order of the object before. -/
inductive MethodArg (u : List Char → Fin 256) (s : List Char) (ord : Nat) : Psi → Nat → Prop
  | name (p : String × Psi) : p ∈ methodNames → Matches s p.1.toList → MethodArg u s ord p.2 ord
  | fresnel2 (x : List Char) : Matches s ("fresnel".toList ++ x) → (u x).val = 2 → MethodArg u s ord .fresnel 0
  | fresnelN (x : List Char) : Matches s ("fresnel".toList ++ x) → 3 ≤ (u x).val →
      MethodArg u s ord .legendre ((u x).val - 1)

/-- `t` is the new tau object `t0` with the settings of the call; omitted arguments have the documented defaults. -/
def Requested (V : PyWorld) (a : PyArgs) (t0 t : TauD) : Prop :=
  ∃ (p : List Dbl) (r0 r1 : Dbl) (w : String × Win) (m : Psi) (ord : Nat),
    PerturbArg V.P a.perturb p ∧ RangeArg V.P (a.rng.getD (.str (some "all".toList))) r0 r1 ∧
    w ∈ windowNames ∧ Matches (a.wtype.getD "kbmd20".toList) w.1.toList ∧
    MethodArg V.W.toUChar (a.psitype.getD "fresnel4".toList) t0.order m ord ∧
    t = { t0 with
      sigma := a.sigma.getD (.fin (2 / 10 ^ 13))
      bfac := a.bfac
      ecc := a.ecc.getD (.fin 0)
      peri := a.peri.getD (.fin 0)
      useFwd := a.useFwd
      useNorm := a.useNorm
      perturb := p
      range0 := r0
      range1 := r1
      window := w.2
      normeq := V.W.L.normEq w.2
      psinum := m
      order := ord }

end Spec
open Spec

theorem pyNumber_ok {P : PyNum} {o : PyObj} {x : Dbl} (h : pyNumber P o = some (x, false)) : PyValue P o x := by
  rcases pyNumber_cases P o with ⟨y, hy, e⟩ | ⟨z, -, -, e⟩ | ⟨e, -⟩
  · rw [e] at h; cases h; exact hy
  · rw [e] at h; cases h
  · rw [e] at h; cases h

theorem perturbLoop_exc (P : PyNum) (it : Option (List PyObj)) : ∀ (k n : Nat) (t : TauD) (r : TauD × Bool),
    perturbLoop P it k n (t, true) = .ok r → r.2 = true
  | 0, n, t, r, e => by cases e; rfl
  | k + 1, n, t, r, e => by
    rw [perturbLoop, Res.bind_eq_ok] at e
    obtain ⟨x, -, e⟩ := e
    cases h : pyNumber P x with
    | none => rw [h] at e; cases e; rfl
    | some q =>
      rw [h] at e
      obtain ⟨a, b⟩ := q
      exact perturbLoop_exc P it k (n + 1) { t with perturb := t.perturb.set n a } r e

theorem perturbLoop_inv (P : PyNum) (it : Option (List PyObj)) (k n : Nat) (t u : TauD) (h : u.err = none)
    (e : perturbLoop P it (k + 1) n (t, false) = .ok (u, false)) :
    ∃ l x a, it = some l ∧ l[n]? = some x ∧ PyValue P x a ∧
      perturbLoop P it k (n + 1) ({ t with perturb := t.perturb.set n a }, false) = .ok (u, false) := by
  rw [perturbLoop, Res.bind_eq_ok] at e
  obtain ⟨x, hx, e⟩ := e
  have hl : ∃ l, it = some l ∧ l[n]? = some x := by
    unfold pyNext at hx
    cases it with
    | none => cases hx
    | some l =>
      refine ⟨l, rfl, ?_⟩
      cases hn : l[n]? with
      | none => simp [hn] at hx
      | some y => simp [hn] at hx; rw [hx]
  obtain ⟨l, rfl, hl⟩ := hl
  cases hp : pyNumber P x with
  | none => rw [hp] at e; cases e; cases h
  | some q =>
    obtain ⟨a, b⟩ := q
    rw [hp] at e
    cases b with
    | true =>
      have := perturbLoop_exc P _ _ _ _ _ e
      cases this
    | false => exact ⟨l, x, a, rfl, hl, pyNumber_ok hp, e⟩

/-- Success of the perturbation argument. -/
theorem getPyPerturb_ok (P : PyNum) (o : Option PyObj) (t u : TauD) (h : t.err = none) (hl : t.perturb.length = 5)
    (hu : u.err = none) (e : getPyPerturb P o t = .ok (u, false)) :
    ∃ p, PerturbArg P o p ∧ u = { t with perturb := p } := by
  have h' : t.err.isSome = false := by rw [h]; rfl
  simp only [getPyPerturb, h', Bool.false_eq_true, if_false] at e
  cases o with
  | none => cases e; exact ⟨_, .omitted, rfl⟩
  | some o =>
    cases o with
    | list n it =>
      by_cases h5 : n = 5
      · subst h5
        simp only [ne_eq, not_true, if_false] at e
        obtain ⟨l, x0, a0, rfl, h0, v0, e⟩ := perturbLoop_inv P it 4 0 _ u hu e
        obtain ⟨l', x1, a1, hl1, h1, v1, e⟩ := perturbLoop_inv P _ 3 1 _ u hu e
        cases hl1
        obtain ⟨l', x2, a2, hl1, h2, v2, e⟩ := perturbLoop_inv P _ 2 2 _ u hu e
        cases hl1
        obtain ⟨l', x3, a3, hl1, h3, v3, e⟩ := perturbLoop_inv P _ 1 3 _ u hu e
        cases hl1
        obtain ⟨l', x4, a4, hl1, h4, v4, e⟩ := perturbLoop_inv P _ 0 4 _ u hu e
        cases hl1
        cases e
        refine ⟨[a0, a1, a2, a3, a4], ?_, ?_⟩
        · match l, h0, h1, h2, h3, h4 with
          | y0 :: y1 :: y2 :: y3 :: y4 :: rest, h0, h1, h2, h3, h4 =>
            cases h0; cases h1; cases h2; cases h3; cases h4
            exact .list x0 x1 x2 x3 x4 rest a0 a1 a2 a3 a4 v0 v1 v2 v3 v4
        · simp only [perturb_set t hl]
      · simp only [ne_eq, h5, not_false_eq_true, if_true] at e
        cases e; cases hu
    | bytes s => cases e; cases hu
    | str s => cases e; cases hu
    | int s => cases e; cases hu
    | float s => cases e; cases hu
    | other => cases e; cases hu

theorem setRange_ok (s : Option (List Char)) (dup : Bool) (t u : TauD) (m : List MemEv) (h : t.err = none)
    (hu : u.err = none) (e : setRange s dup t = .ok (u, m)) :
    ∃ s', s = some s' ∧ ∃ p ∈ rangeNames, Matches s' p.1.toList ∧ u = { t with range0 := .fin p.2.1, range1 := .fin p.2.2 } := by
  have h' : t.err.isSome = false := by rw [h]; rfl
  cases s with
  | none => simp [setRange, h'] at e; rw [← e.1] at hu; cases hu
  | some s =>
    cases dup with
    | false => simp [setRange, h'] at e
    | true =>
      refine ⟨s, rfl, ?_⟩
      rcases setRange_cases t h s with ⟨p, hp, hm, m', e'⟩ | ⟨hn, r, m', e', h1, h2⟩
      · rw [e] at e'; cases e'
        exact ⟨p, hp, hm, rfl⟩
      · rw [e] at e'; cases e'
        exact absurd hu h1

theorem pyNext_ok {it : Option (List PyObj)} {n : Nat} {x : PyObj} (h : pyNext it n = .ok x) :
    ∃ l, it = some l ∧ l[n]? = some x := by
  unfold pyNext at h
  cases it with
  | none => cases h
  | some l =>
    refine ⟨l, rfl, ?_⟩
    cases hn : l[n]? with
    | none => simp [hn] at h
    | some y => simp [hn] at h; rw [h]

/-- Success of the range argument. -/
theorem getPyRange_ok (P : PyNum) (dup : Bool) (o : PyObj) (t u : TauD) (h : t.err = none)
    (hu : u.err = none) (e : getPyRange P dup (some o) t = .ok (u, false)) :
    ∃ a b, RangeArg P o a b ∧ u = { t with range0 := a, range1 := b } := by
  have h' : t.err.isSome = false := by rw [h]; rfl
  simp only [getPyRange, h', Bool.false_eq_true, if_false] at e
  cases o with
  | bytes s =>
    simp only [Res.bind_eq_ok] at e
    obtain ⟨q, e1, e2⟩ := e
    cases e2
    obtain ⟨s', hs, p, hp, hm, hq⟩ := setRange_ok _ dup t q.1 q.2 h hu e1
    cases hs
    exact ⟨_, _, .bytes s p hp hm, hq⟩
  | str s =>
    simp only [Res.bind_eq_ok] at e
    obtain ⟨q, e1, e2⟩ := e
    have e3 : q.1 = u := by injection e2 with e2; exact (Prod.mk.inj e2).1
    subst e3
    obtain ⟨s', hs, p, hp, hm, hq⟩ := setRange_ok _ dup t q.1 q.2 h hu e1
    cases hs
    exact ⟨_, _, .str s' p hp hm, hq⟩
  | list n it =>
    by_cases h2 : n = 2
    · subst h2
      simp only [ne_eq, not_true, if_false, Res.bind_eq_ok] at e
      obtain ⟨x, hx, e⟩ := e
      obtain ⟨l, rfl, hl⟩ := pyNext_ok hx
      cases hp : pyNumber P x with
      | none => rw [hp] at e; cases e; cases hu
      | some q =>
        obtain ⟨a, b⟩ := q
        rw [hp] at e
        simp only [Res.bind_eq_ok] at e
        obtain ⟨y, hy, e⟩ := e
        obtain ⟨l', hl', hy⟩ := pyNext_ok hy
        cases hl'
        cases hq : pyNumber P y with
        | none => rw [hq] at e; cases e; cases hu
        | some q' =>
          obtain ⟨a', b'⟩ := q'
          rw [hq] at e
          have e2 := Prod.mk.inj (Res.ok.inj e)
          obtain ⟨e2, e3⟩ := e2
          obtain ⟨rfl, rfl⟩ := (Bool.or_eq_false_iff.1 e3)
          refine ⟨a, a', ?_, e2.symm⟩
          match l, hl, hy with
          | y0 :: y1 :: rest, hl, hy =>
            cases hl; cases hy
            exact .pair x y rest a a' (pyNumber_ok hp) (pyNumber_ok hq)
    · simp only [ne_eq, h2, not_false_eq_true, if_true] at e
      cases e; cases hu
  | int s => cases e; cases hu
  | float s => cases e; cases hu
  | other => cases e; cases hu

theorem setWindowType_ok (L : Lib) (s : List Char) (dup : Bool) (t : TauD)
    (hu : (setWindowType L (some s) dup t).1.err = none) :
    t.err = none ∧ ∃ p ∈ windowNames, Matches s p.1.toList ∧
      (setWindowType L (some s) dup t).1 = { t with window := p.2, normeq := L.normEq p.2 } := by
  by_cases h : t.err = none
  · cases dup with
    | false =>
      obtain ⟨l, e⟩ := C17_window_null L t h (some s) false (.inr rfl)
      rw [e] at hu; cases hu
    | true =>
      by_cases hp : ∃ p ∈ windowNames, Matches s p.1.toList
      · obtain ⟨p, hp, hm⟩ := hp
        exact ⟨h, p, hp, hm, by rw [C17_window_accept L t h s p hp hm]⟩
      · obtain ⟨r, e, h1, -⟩ := C17_window_reject L t h s (fun p q1 q2 => hp ⟨p, q1, q2⟩)
        rw [e] at hu; exact absurd hu h1
  · rw [setWindowType, if_pos (Option.isSome_iff_ne_none.2 h)] at hu; exact absurd hu h

theorem setPsiType_ok (u : List Char → Fin 256) (s : List Char) (dup : Bool) (t : TauD)
    (hu : (setPsiType u (some s) dup t).1.err = none) :
    t.err = none ∧ ∃ m ord, MethodArg u s t.order m ord ∧ (setPsiType u (some s) dup t).1 = { t with psinum := m, order := ord } := by
  by_cases h : t.err = none
  · cases dup with
    | false =>
      obtain ⟨l, e⟩ := C18_null u t h (some s) false (.inr rfl)
      rw [e] at hu; cases hu
    | true =>
      refine ⟨h, ?_⟩
      rcases C18_accept_sound u t h s hu with ⟨p, hp, hm, e⟩ | ⟨x, hm, hx, e⟩ | ⟨x, hm, hx, e⟩
      · exact ⟨_, _, .name p hp hm, e⟩
      · exact ⟨_, _, .fresnel2 x hm hx, e⟩
      · exact ⟨_, _, .fresnelN x hm hx, e⟩
  · rw [setPsiType, if_pos (Option.isSome_iff_ne_none.2 h)] at hu; exact absurd hu h

theorem reconstruction_err {N : Num Dbl Cpx} {L : Lib} {sem : Sem} {Z : FFT} {E : Env} {t u : TauD} (h : t.err ≠ none)
    (e : reconstruction N L sem Z E t = .ok u) : u.err ≠ none := by
  have hp : prepare N L E t = .ok t := by
    have h1 : checkKeywords L t = .ok t := by rw [checkKeywords]; exact guarded_err _ h
    have h2 : checkOccType L t = .ok t := by rw [checkOccType]; exact guarded_err _ h
    have h3 : getWindowWidth N L t = .ok t := by rw [getWindowWidth]; exact guarded_err _ h
    have h4 : checkDataRange N t = .ok t := by rw [checkDataRange]; exact guarded_err _ h
    rw [prepare, h1, Res.ok_bind, h2, Res.ok_bind, h3, Res.ok_bind, h4, Res.ok_bind, guarded_err _ h]
  rw [reconstruction, hp, Res.ok_bind, guarded_err _ h] at e
  cases e
  exact h

/-- Success of all settings. -/
theorem pySettings_ok (V : PyWorld) (a : PyArgs) (t0 u : TauD) (h : t0.err = none) (hl : t0.perturb.length = 5)
    (e : pySettings V a t0 = .ok (u, false)) (hu : u.err = none) :
    ∃ t, Requested V a t0 t ∧ reconstruction V.W.N V.W.L (runXf V.W.N) V.W.Z V.W.E t = .ok u := by
  simp only [pySettings, Res.bind_eq_ok] at e
  obtain ⟨r1, e1, r2, e2, u', e3, e4⟩ := e
  obtain ⟨rfl, e5⟩ := Prod.mk.inj (Res.ok.inj e4)
  obtain ⟨x1, x2⟩ := Bool.or_eq_false_iff.1 e5
  obtain ⟨t1, b1⟩ := r1
  obtain ⟨t2, b2⟩ := r2
  subst x1; subst x2
  have h3 : (setPsiType V.W.toUChar (some (a.psitype.getD "fresnel4".toList)) V.dupPsi
      (setWindowType V.W.L (some (a.wtype.getD "kbmd20".toList)) V.dupWindow t2).1).1.err = none := by
    by_contra hc
    exact reconstruction_err hc e3 hu
  obtain ⟨h4, m, ord, hm, q1⟩ := setPsiType_ok _ _ _ _ h3
  obtain ⟨h5, w, hw, hw', q2⟩ := setWindowType_ok _ _ _ _ h4
  have h6 : t1.err = none := by
    cases hc : t1.err with
    | none => rfl
    | some x =>
      rw [(C57_guard V.P V.dupRange _ t1 (by rw [hc]; simp)).1] at e2
      cases e2; rw [hc] at h5; cases h5
  have hv : getPyVars a t0 = { t0 with
    sigma := a.sigma.getD (.fin (2 / 10000000000000))
    bfac := a.bfac
    ecc := a.ecc.getD (.fin 0)
    peri := a.peri.getD (.fin 0)
    useFwd := a.useFwd
    useNorm := a.useNorm } := by simp [getPyVars, h]
  rw [hv] at e1
  obtain ⟨p, hp, rfl⟩ := getPyPerturb_ok _ _ _ _ (by exact h) (by exact hl) h6 e1
  obtain ⟨r0, r1, hr, rfl⟩ := getPyRange_ok _ _ _ _ _ h6 h5 e2
  refine ⟨_, ⟨p, r0, r1, w, m, ord, hp, hr, hw, hw', ?_, rfl⟩, ?_⟩
  · rw [q2] at hm; exact hm
  · rw [q1, q2] at e3
    rw [← e3]
    norm_num

/-- What a run of the constructor that ends looks like. -/
theorem pyInit_cases (V : PyWorld) (a : PyArgs) (o : PyOut) (e : pyInit V a = .ok o) :
    (o.ret = -1 ∧ o.exc = true ∧ o.result = none ∧ o.tauLeft = false) ∨
    ∃ p d t r, a.parsed = true ∧ a.dlp = some p ∧ p.history = true ∧ pyDlpToC V.dlpMem p = .ok (some d) ∧
      d.errorOccurred = false ∧
      createFromDLP V.W.L V.W.A V.W.N (some d) (V.W.N.mul a.resolution (a.resFactor.getD (.fin (3 / 4)))) = .ok (some t) ∧
      pySettings V a t = .ok r ∧ r.1.err = none ∧ o = ⟨1, r.2, some r.1, false, false⟩ := by
  unfold pyInit at e
  split at e
  · cases e; exact .inl ⟨rfl, rfl, rfl, rfl⟩
  rename_i hpar
  have hpar : a.parsed = true := by simpa using hpar
  cases hd : a.dlp with
  | none => rw [hd] at e; cases e
  | some p =>
    rw [hd] at e
    simp only [Res.bind_eq_ok] at e
    obtain ⟨od, e1, e⟩ := e
    cases od with
    | none => cases e; exact .inl ⟨rfl, rfl, rfl, rfl⟩
    | some d =>
      cases he : d.errorOccurred with
      | true => simp only [he, if_true] at e; cases e; exact .inl ⟨rfl, rfl, rfl, rfl⟩
      | false =>
        simp only [he, Bool.false_eq_true, if_false, Res.bind_eq_ok] at e
        obtain ⟨ot, e2, e⟩ := e
        cases ot with
        | none => cases e; exact .inl ⟨rfl, rfl, rfl, rfl⟩
        | some t =>
          simp only [Res.bind_eq_ok] at e
          obtain ⟨r, e3, e⟩ := e
          cases hr : r.1.err with
          | some x => simp only [hr, Option.isSome_some, if_true] at e; cases e; exact .inl ⟨rfl, rfl, rfl, rfl⟩
          | none =>
            simp only [hr, Option.isSome_none, Bool.false_eq_true, if_false] at e
            cases hh : p.history with
            | false => simp only [hh, Bool.not_false, if_true] at e; cases e
            | true =>
              simp only [hh, Bool.not_true, Bool.false_eq_true, if_false] at e
              cases e
              exact .inr ⟨p, d, t, r, hpar, rfl, hh, e1, he, e2, e3, hr, rfl⟩

/-- **C66**, failure: if the constructor reports failure then a Python exception is set and the Python object receives no
arrays; success means that there are arrays of an object without error. The tau object is always released. -/
theorem C66_exception_partial (V : PyWorld) (a : PyArgs) (o : PyOut) (e : pyInit V a = .ok o) :
    (o.ret = -1 ∧ o.exc = true ∧ o.result = none ∨ o.ret = 1 ∧ ∃ u, o.result = some u ∧ u.err = none) ∧ o.tauLeft = false := by
  rcases pyInit_cases V a o e with ⟨h1, h2, h3, h4⟩ | ⟨p, d, t, r, -, -, -, -, -, -, -, h, rfl⟩
  · exact ⟨.inl ⟨h1, h2, h3⟩, h4⟩
  · exact ⟨.inr ⟨rfl, r.1, rfl, h⟩, rfl⟩

/-- **C66**, success: if the constructor succeeds and no exception is pending then the result is the reconstruction of
a tau object that was created from the attributes of the DLP argument at the resolution `resolution * resolution_factor`, with
exactly the settings of the call. -/
theorem C66_settings (V : PyWorld) (a : PyArgs) (o : PyOut) (e : pyInit V a = .ok o) (h : o.ret = 1) (hx : o.exc = false) :
    ∃ p d t0 t u, a.dlp = some p ∧ o.result = some u ∧
      WellFormed d ∧ (∀ f, ∃ l, p.attr f = .vec l ∧ d.arr f = some l) ∧
      CreatedFrom V.W.N d (V.W.N.mul a.resolution (a.resFactor.getD (.fin (3 / 4)))) t0 ∧ t0.err = none ∧ Requested V a t0 t ∧
      reconstruction V.W.N V.W.L (runXf V.W.N) V.W.Z V.W.E t = .ok u ∧ u.err = none := by
  rcases pyInit_cases V a o e with ⟨h1, -, -, -⟩ | ⟨p, d, t, r, h0, h1, h2, h3, h4, h5, h6, h7, rfl⟩
  · rw [h1] at h; cases h
  obtain ⟨hw, hf⟩ := C59_faithful _ p d h3 h4
  obtain ⟨o', eo, hc⟩ := create_faithful_aux V.W.L V.W.A V.W.N d (V.W.N.mul a.resolution (a.resFactor.getD (.fin (3 / 4)))) hw
  rw [h5] at eo
  cases eo
  have ht : t.err = none := by
    cases he : t.err with
    | none => rfl
    | some x =>
      exfalso
      have hne : t.err ≠ none := by rw [he]; simp
      simp only [pySettings, Res.bind_eq_ok] at h6
      obtain ⟨r1, e1, r2, e2, u', e3, e4⟩ := h6
      have hv : getPyVars a t = t := by simp [getPyVars, he]
      rw [hv, (C57_guard V.P V.dupRange _ t hne).2] at e1
      cases e1
      rw [(C57_guard V.P V.dupRange _ t hne).1] at e2
      cases e2
      have hs : (t.err).isSome = true := by rw [he]; rfl
      simp only [setWindowType, setPsiType, hs, if_true] at e3
      have := reconstruction_err hne e3
      cases e4
      exact this h7
  obtain ⟨c1, c2⟩ := hc t rfl ht
  obtain ⟨u, b⟩ := r
  have hx : b = false := hx
  subst hx
  obtain ⟨t', q1, q2⟩ := pySettings_ok V a t u ht (by rw [c2.perturb]; rfl) h6 h7
  exact ⟨p, d, t, t', u, h1, rfl, hw, fun f => by obtain ⟨l, x1, x2, -⟩ := hf f; exact ⟨l, x1, x2⟩, c1, ht, q1, q2, h7⟩

/-- The negation of **C66** without arguments: every argument is optional for the parser, so `DiffractionCorrection()` uses
an uninitialised pointer. -/
theorem C66_noarg_false (V : PyWorld) (a : PyArgs) (hp : a.parsed = true) (hd : a.dlp = none) : pyInit V a = .ub .uninit := by
  simp [pyInit, hp, hd]

/-- The negation of **C66** for a DLP argument without the attribute `history`: after a successful reconstruction NULL is
dereferenced. -/
theorem C66_history_false (V : PyWorld) (a : PyArgs) (p : PyDlp) (hd : a.dlp = some p) (hh : p.history = true) (o : PyOut)
    (e : pyInit V a = .ok o) (h : o.ret = 1) :
    pyInit V { a with dlp := some { p with history := false } } = .ub .nullDeref := by
  rcases pyInit_cases V a o e with ⟨h1, -⟩ | ⟨p', d, t, r, h0, h1, h2, h3, h4, h5, h6, h7, rfl⟩
  · rw [h1] at h; cases h
  rw [hd] at h1
  cases h1
  have h3' : pyDlpToC V.dlpMem { p with history := false } = .ok (some d) := by
    rw [← h3]
    have : ∀ (fs : List DFld) d, extractAll { p with history := false } fs d = extractAll p fs d := by
      intro fs
      induction fs with
      | nil => intro d; rfl
      | cons f fs ih => intro d; simp only [extractAll, ih]; rfl
    simp only [pyDlpToC, this]
  have h6' : pySettings V { a with dlp := some { p with history := false } } t = .ok r := h6
  have h0' : (!a.parsed) = false := by rw [h0]; rfl
  unfold pyInit
  simp only [h0', Bool.false_eq_true, if_false, h3', Res.ok_bind, h4, h5, h6', h7, Option.isSome_none,
    Bool.not_false, if_true]

/-- The negation of **C66** for the C object of the DLP data: whenever the tau object cannot be created or ends with an error,
it is never freed. -/
theorem C66_leak_false (V : PyWorld) (a : PyArgs) (p : PyDlp) (d : DLP) (hp : a.parsed = true) (hd : a.dlp = some p)
    (e : pyDlpToC V.dlpMem p = .ok (some d)) (he : d.errorOccurred = false) (o : PyOut) (eo : pyInit V a = .ok o)
    (h : o.ret = -1) : o.dlpLeft = true := by
  unfold pyInit at eo
  simp only [hp, Bool.not_true, Bool.false_eq_true, if_false, hd, e, Res.ok_bind, he, Res.bind_eq_ok] at eo
  obtain ⟨ot, e2, eo⟩ := eo
  cases ot with
  | none => cases eo; rfl
  | some t =>
    simp only [Res.bind_eq_ok] at eo
    obtain ⟨r, e3, eo⟩ := eo
    cases hr : r.1.err with
    | some x => simp only [hr, Option.isSome_some, if_true] at eo; cases eo; rfl
    | none =>
      simp only [hr, Option.isSome_none, Bool.false_eq_true, if_false] at eo
      cases hh : p.history with
      | false => simp only [hh, Bool.not_false, if_true] at eo; cases eo
      | true => simp only [hh, Bool.not_true, Bool.false_eq_true, if_false] at eo; cases eo; cases h

/-! ### Examples -/

/-- A world where everything works. -/
def pyWorld : PyWorld where
  W := ⟨unitLib, exactNum, ⟨id, id⟩, exampleAlloc, exampleEnv, fun s => if s = "4".toList then 4 else 0⟩
  P := pyNum
  dlpMem := true
  dupRange := true
  dupWindow := true
  dupPsi := true

/-- A call `DiffractionCorrection(dlp, 2, rng=r, wtype="Rect", psitype="Newton Riemann", bfac=False,
resolution_factor=1, perturb=b)`. -/
def pyArgs (r : Option PyObj) (b : Option PyObj) : PyArgs where
  parsed := true
  dlp := some ⟨fun f => .vec (match f with
      | .rho => tenRadii
      | .rx => tenRadii
      | .fSky => List.replicate 10 (.fin (3/4))
      | _ => flatV), true⟩
  resolution := .fin 2
  rng := r
  wtype := some "Rect".toList
  psitype := some "Newton Riemann".toList
  useFwd := false
  useNorm := true
  bfac := false
  sigma := none
  resFactor := some (.fin 1)
  ecc := none
  peri := none
  perturb := b

/-- `C66_settings`, `C66_history_false`: the call succeeds. -/
example : ∃ o, pyInit pyWorld (pyArgs none none) = .ok o ∧ o.ret = 1 ∧ o.exc = false := by
  obtain ⟨o, e, h⟩ := Res.of_test (x := pyInit pyWorld (pyArgs none none))
    (p := fun o => o.ret == 1 && o.exc == false) (by decide +kernel)
  exact ⟨o, e, by simpa using h⟩

/-- `C66_exception_partial`, `C66_leak_false`: a range without data. -/
example : ∃ o, pyInit pyWorld (pyArgs (some (.str (some "titan".toList))) none) = .ok o ∧ o.ret = -1 ∧ o.dlpLeft = true := by
  obtain ⟨o, e, h⟩ := Res.of_test (x := pyInit pyWorld (pyArgs (some (.str (some "titan".toList))) none))
    (p := fun o => o.ret == -1 && o.dlpLeft) (by decide +kernel)
  exact ⟨o, e, by simpa using h⟩

/-- `C66_noarg_false`. -/
example : ({ pyArgs none none with dlp := none } : PyArgs).parsed = true ∧ ({ pyArgs none none with dlp := none } : PyArgs).dlp = none :=
  ⟨rfl, rfl⟩

/-- The negation of **C66** for overflow: success is reported although an exception is pending, and the perturbation in the
result is -1, not the number that was passed. -/
theorem C66_overflow_false : ∃ o u, pyInit pyWorld
    (pyArgs none (some (.list 5 (some [.int (10 ^ 400), .int 0, .int 0, .int 0, .int 0])))) = .ok o ∧
    o.ret = 1 ∧ o.exc = true ∧ o.result = some u ∧ u.perturb[0]? = some (.fin (-1)) := by
  obtain ⟨o, e, h⟩ := Res.of_test (x := pyInit pyWorld
    (pyArgs none (some (.list 5 (some [.int (10 ^ 400), .int 0, .int 0, .int 0, .int 0])))))
    (p := fun o => o.ret == 1 && o.exc && o.result.any (fun u => u.perturb[0]? == some (.fin (-1)))) (by decide +kernel)
  simp only [Bool.and_eq_true, beq_iff_eq, Option.any_eq_true] at h
  obtain ⟨⟨h1, h2⟩, u, h3, h4⟩ := h
  exact ⟨o, u, e, h1, h2, h3, h4⟩

end Verif
