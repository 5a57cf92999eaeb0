import Verif.Proofs.Geometry
import Verif.Proofs.Loop
import Verif.Spec.Creation

namespace Verif
open Spec

/-- Everything except arrays and the error is the same. -/
def SameScalars (t t' : TauD) : Prop :=
  t' = { t with arr := t'.arr, carr := t'.carr, err := t'.err }

theorem SameScalars.refl (t : TauD) : SameScalars t t := rfl

theorem SameScalars.trans {a b c : TauD} (h1 : SameScalars a b) (h2 : SameScalars b c) :
    SameScalars a c := by
  unfold SameScalars at *
  cases a; cases b; cases c
  simp only [Tau.mk.injEq] at *
  obtain ⟨-, -, h⟩ := h1
  obtain ⟨-, -, h'⟩ := h2
  simp_all

theorem SameScalars.size {a b : TauD} (h : SameScalars a b) : b.arrSize = a.arrSize := by
  rw [h]

theorem setArr_same (t : TauD) (f v) : SameScalars t (t.setArr f v) := rfl
theorem setC_same (t : TauD) (f v) : SameScalars t (t.setC f v) := rfl
theorem fail_same (t : TauD) (f v) : SameScalars t (t.fail f v) := rfl

@[simp] theorem fresh_length (j : List Dbl) (n : Nat) : (fresh j n).length = n := by
  simp [fresh]
@[simp] theorem cfresh_length (j : List Cpx) (n : Nat) : (cfresh j n).length = n := by
  simp [cfresh]

/-- Result of allocating the members `fs`. -/
structure Allocated (A : Alloc) (t t' : TauD) (fs : List Fld) (cs : List CFld) : Prop where
  same : SameScalars t t'
  good : t'.err = none → (∀ f ∈ fs, ∃ l, t'.arr f = some l ∧ l.length = t.arrSize) ∧
    ∀ f ∈ cs, ∃ l, t'.carr f = some l ∧ l.length = t.arrSize
  other : ∀ f, f ∉ fs → t'.arr f = t.arr f
  cother : ∀ f, f ∉ cs → t'.carr f = t.carr f
  noerr : (∀ i, A.ok i = true) → t'.err = none

theorem mallocVar_spec (A : Alloc) (f : Fld) (i line : Nat) {t : TauD} (h : t.err = none)
    (hf : t.arr f = none) : ∃ t', mallocVar A f i line t = .ok t' ∧ Allocated A t t' [f] [] := by
  rw [mallocVar, guarded_none _ h]
  simp only [hf, Option.isSome_none, Bool.false_eq_true, if_false]
  split_ifs with ho
  · refine ⟨_, rfl, ⟨rfl, ?_, ?_, ?_, fun _ => h⟩⟩
    · intro _; simp [Tau.setArr]
    · intro g hg; simp at hg; simp [Tau.setArr, hg]
    · intro g _; rfl
  · refine ⟨_, rfl, ⟨rfl, ?_, ?_, ?_, ?_⟩⟩
    · intro e; simp at e
    · intro g hg; simp at hg; simp [Tau.setArr, Tau.fail, hg]
    · intro g _; rfl
    · intro e; exact absurd (e i) ho

theorem mallocCVar_spec (A : Alloc) (f : CFld) (i line : Nat) {t : TauD} (h : t.err = none)
    (hf : t.carr f = none) : ∃ t', mallocCVar A f i line t = .ok t' ∧ Allocated A t t' [] [f] := by
  rw [mallocCVar, guarded_none _ h]
  simp only [hf, Option.isSome_none, Bool.false_eq_true, if_false]
  split_ifs with ho
  · refine ⟨_, rfl, ⟨rfl, ?_, ?_, ?_, fun _ => h⟩⟩
    · intro _; simp [Tau.setC]
    · intro g hg; rfl
    · intro g hg; simp at hg; simp [Tau.setC, hg]
  · refine ⟨_, rfl, ⟨rfl, ?_, ?_, ?_, ?_⟩⟩
    · intro e; simp at e
    · intro g hg; rfl
    · intro g hg; simp at hg; simp [Tau.setC, Tau.fail, hg]
    · intro e; exact absurd (e i) ho

theorem Allocated.trans {A : Alloc} {a b c : TauD} {fs gs : List Fld} {cs ds : List CFld}
    (h1 : Allocated A a b fs cs) (h2 : Allocated A b c gs ds)
    (hd : ∀ f ∈ gs, f ∉ fs) (hd' : ∀ f ∈ ds, f ∉ cs) (hb : b.err = none) :
    Allocated A a c (fs ++ gs) (cs ++ ds) := by
  refine ⟨h1.same.trans h2.same, ?_, ?_, ?_, h2.noerr⟩
  · intro hc
    obtain ⟨x1, x2⟩ := h1.good hb
    obtain ⟨y1, y2⟩ := h2.good hc
    constructor
    · intro f hf
      by_cases hg : f ∈ gs
      · obtain ⟨l, a1, a2⟩ := y1 f hg; exact ⟨l, a1, by rw [a2, h1.same.size]⟩
      · rw [h2.other f hg]; exact x1 f (by simp_all)
    · intro f hf
      by_cases hg : f ∈ ds
      · obtain ⟨l, a1, a2⟩ := y2 f hg; exact ⟨l, a1, by rw [a2, h1.same.size]⟩
      · rw [h2.cother f hg]; exact x2 f (by simp_all)
  · intro f hf; simp at hf; rw [h2.other f hf.2, h1.other f hf.1]
  · intro f hf; simp at hf; rw [h2.cother f hf.2, h1.cother f hf.1]

theorem Allocated.stop {A : Alloc} {a b : TauD} {fs : List Fld} {cs : List CFld}
    (h1 : Allocated A a b fs cs) (hb : b.err ≠ none) (gs : List Fld) (ds : List CFld) :
    Allocated A a b (fs ++ gs) (cs ++ ds) :=
  ⟨h1.same, fun e => absurd e hb, fun f hf => h1.other f (by simp_all),
    fun f hf => h1.cother f (by simp_all), h1.noerr⟩

theorem mallocAll_err (A : Alloc) (ps : List (Fld × Nat × Nat)) {t : TauD} (h : t.err ≠ none) :
    mallocAll A ps t = .ok t := by
  induction ps with
  | nil => rfl
  | cons p ps ih => rw [mallocAll, mallocVar, guarded_err _ h, Res.ok_bind, ih]

theorem mallocAll_spec (A : Alloc) (ps : List (Fld × Nat × Nat)) :
    ∀ {t : TauD}, t.err = none → (∀ p ∈ ps, t.arr p.1 = none) → (ps.map (·.1)).Nodup →
    ∃ t', mallocAll A ps t = .ok t' ∧ Allocated A t t' (ps.map (·.1)) [] := by
  induction ps with
  | nil =>
    intro t h _ _
    exact ⟨t, rfl, ⟨rfl, by simp, by simp, by simp, fun _ => h⟩⟩
  | cons p ps ih =>
    intro t h hn hd
    simp only [List.map_cons, List.nodup_cons] at hd
    obtain ⟨t1, e1, a1⟩ := mallocVar_spec A p.1 p.2.1 p.2.2 h (hn p (by simp))
    rw [mallocAll, e1, Res.ok_bind]
    by_cases h1 : t1.err = none
    · obtain ⟨t2, e2, a2⟩ := ih h1 (fun q hq => by
        rw [a1.other q.1]
        · exact hn q (by simp [hq])
        · intro hc; simp at hc; exact hd.1 (hc ▸ List.mem_map_of_mem hq)) hd.2
      refine ⟨t2, e2, ?_⟩
      exact a1.trans a2 (fun f hf hc => by simp at hc; exact hd.1 (hc ▸ hf)) (by simp) h1
    · exact ⟨t1, mallocAll_err A ps h1, a1.stop h1 _ []⟩

theorem mallocMembers_spec (A : Alloc) {t : TauD} (h : t.err = none) (hs : t.arrSize ≠ 0)
    (ha : ∀ f, t.arr f = none) (hc : ∀ f, t.carr f = none) :
    ∃ t', mallocMembers A t = .ok t' ∧
      Allocated A t t' ([.rho, .phi, .k, .rhoDot, .B, .D, .tOet, .tRet, .tSet, .rhoCorrPole,
        .rhoCorrTiming, .phiRl, .rx, .ry, .rz] ++ [.F]) [.tIn] := by
  rw [mallocMembers, guarded_none _ h]
  simp only [hs, if_false]
  obtain ⟨t1, e1, a1⟩ := mallocAll_spec A mallocList h (fun p _ => ha p.1) (by decide)
  rw [e1, Res.ok_bind]
  have hm : mallocList.map (·.1) = [.rho, .phi, .k, .rhoDot, .B, .D, .tOet, .tRet, .tSet,
      .rhoCorrPole, .rhoCorrTiming, .phiRl, .rx, .ry, .rz] := rfl
  rw [hm] at a1
  by_cases h1 : t1.err = none
  swap
  · exact ⟨t1, by simp [mallocCVar, mallocVar, guarded_err _ h1], a1.stop h1 [.F] [.tIn]⟩
  obtain ⟨t2, e2, a2⟩ := mallocCVar_spec A .tIn 16 83 h1 (by rw [a1.cother _ (by simp)]; exact hc _)
  have a12 := a1.trans a2 (by simp) (by simp) h1
  rw [e2, Res.ok_bind]
  by_cases h2 : t2.err = none
  swap
  · exact ⟨t2, by simp [mallocVar, guarded_err _ h2], a12.stop h2 [.F] []⟩
  obtain ⟨t3, e3, a3⟩ := mallocVar_spec A .F 17 84 h2
    (by rw [a2.other _ (by simp), a1.other _ (by decide)]; exact ha _)
  exact ⟨t3, e3, a12.trans a3 (by decide) (by simp) h2⟩

/-! ### copying -/

theorem storeAt_spec {t : TauD} {f : Fld} {l : List Dbl} {n : Nat} {v : Dbl} (h : t.arr f = some l)
    (hn : n < l.length) : storeAt f n v t = .ok (t.setArr f (some (l.set n v))) := by
  simp [storeAt, h, wr_lt hn]

theorem cstoreAt_spec {t : TauD} {f : CFld} {l : List Cpx} {n : Nat} {v : Cpx}
    (h : t.carr f = some l) (hn : n < l.length) :
    cstoreAt f n v t = .ok (t.setC f (some (l.set n v))) := by
  simp [cstoreAt, h, wr_lt hn]

/-- The first `k` elements of the list `l` are those of `m`. -/
def AgreeTo {α : Type} (k : Nat) (l m : List α) : Prop :=
  l.length = m.length ∧ ∀ i, i < k → l[i]? = m[i]?

theorem AgreeTo.all {α : Type} {l m : List α} {k : Nat} (h : AgreeTo k l m) (hk : m.length ≤ k) :
    l = m := by
  apply List.ext_getElem?
  intro i
  by_cases hi : i < k
  · exact h.2 i hi
  · rw [List.getElem?_eq_none (by rw [h.1]; omega), List.getElem?_eq_none (by omega)]

theorem AgreeTo.set {α : Type} {l m : List α} {k : Nat} {v : α} (h : AgreeTo k l m)
    (hv : m[k]? = some v) : AgreeTo (k + 1) (l.set k v) m := by
  have hk : k < m.length := by
    by_contra hc; rw [List.getElem?_eq_none (by omega)] at hv; cases hv
  refine ⟨by simp [h.1], fun i hi => ?_⟩
  rw [List.getElem?_set]
  split_ifs with h1 h2
  · rw [← h1, hv]
  · exact absurd (by rw [h.1]; exact hk) h2
  · exact h.2 i (by omega)

/-- State of the copy loop before row `k`: the listed members are present and
agree with the source up to row `k`; nothing else has changed. -/
structure Copied (d : DLP) (ps : List (Fld × DFld)) (k : Nat) (t0 t : TauD) : Prop where
  frame : t = { t0 with arr := t.arr }
  other : ∀ f, f ∉ ps.map (·.1) → t.arr f = t0.arr f
  agree : ∀ p ∈ ps, ∃ l m, t.arr p.1 = some l ∧ d.arr p.2 = some m ∧ AgreeTo k l m

theorem copyAt_spec {d : DLP} {p : Fld × DFld} {n : Nat} {t : TauD} {l m : List Dbl}
    (h1 : t.arr p.1 = some l) (h2 : d.arr p.2 = some m) (ha : AgreeTo n l m) (hn : n < m.length) :
    copyAt d p.1 p.2 n t = .ok (t.setArr p.1 (some (l.set n m[n]))) := by
  have : n < l.length := by rw [ha.1]; exact hn
  simp [copyAt, h1, h2, rd_lt hn, wr_lt this]

theorem copyRow_spec (d : DLP) (n : Nat) : ∀ (ps : List (Fld × DFld)) (t : TauD),
    (ps.map (·.1)).Nodup →
    (∀ p ∈ ps, ∃ l m, t.arr p.1 = some l ∧ d.arr p.2 = some m ∧ AgreeTo n l m ∧ n < m.length) →
    ∃ t', copyRow d n ps t = .ok t' ∧ Copied d ps (n + 1) t t' := by
  intro ps
  induction ps with
  | nil => intro t _ _; exact ⟨t, rfl, ⟨rfl, by simp, by simp⟩⟩
  | cons p ps ih =>
    intro t hd hp
    simp only [List.map_cons, List.nodup_cons] at hd
    obtain ⟨l, m, e1, e2, ha, hn⟩ := hp p (by simp)
    rw [copyRow, copyAt_spec e1 e2 ha hn, Res.ok_bind]
    obtain ⟨t', e', c⟩ := ih (t.setArr p.1 (some (l.set n m[n]))) hd.2 (fun q hq => by
      have hne : q.1 ≠ p.1 := fun hc => hd.1 (hc ▸ List.mem_map_of_mem hq)
      have := hp q (by simp [hq])
      simpa [Tau.setArr, hne] using this)
    refine ⟨t', e', ⟨?_, ?_, ?_⟩⟩
    · rw [c.frame]; rfl
    · intro f hf
      simp only [List.map_cons, List.mem_cons, not_or] at hf
      rw [c.other f hf.2]
      simp [Tau.setArr, hf.1]
    · intro q hq
      simp only [List.mem_cons] at hq
      rcases hq with rfl | hq
      · refine ⟨l.set n m[n], m, ?_, e2, ha.set (by simp [hn])⟩
        rw [c.other _ hd.1]; simp [Tau.setArr]
      · exact c.agree q hq

theorem copyDLPMembers_spec {d : DLP} {t : TauD} (h : t.err = none) (hd : d.errorOccurred = false)
    (hs : t.arrSize = d.arrSize) (hw : WellFormed d)
    (ha : ∀ p ∈ copiedMembers, ∃ l, t.arr p.1 = some l ∧ l.length = t.arrSize) :
    ∃ t', copyDLPMembers d t = .ok t' ∧ t' = { t with arr := t'.arr } ∧
      (∀ f, verbatim f = none → t'.arr f = t.arr f) ∧
      ∀ f g, verbatim f = some g → t'.arr f = d.arr g := by
  have hsrc : ∀ p ∈ copiedMembers, ∃ m, d.arr p.2 = some m ∧ m.length = d.arrSize := by
    intro p hp
    apply hw
    revert p
    decide
  rw [copyDLPMembers, guarded_none _ h]
  simp only [hd, hs, ne_eq, not_true_eq_false, if_false, Bool.false_eq_true]
  obtain ⟨t', e, c⟩ := forRange_total (Copied d copiedMembers · t) (fun n t => copyRow d n copiedMembers t)
    d.arrSize 0 t ⟨rfl, fun _ _ => rfl, fun p hp => by
      obtain ⟨l, e1, h1⟩ := ha p hp
      obtain ⟨m, e2, h2⟩ := hsrc p hp
      exact ⟨l, m, e1, e2, by rw [h1, h2, hs], by simp⟩⟩
    (fun i s _ hi c => by
      obtain ⟨s', e', c'⟩ := copyRow_spec d i copiedMembers s (by decide) (fun p hp => by
        obtain ⟨l, m, e1, e2, h1⟩ := c.agree p hp
        obtain ⟨m', e2', h2⟩ := hsrc p hp
        cases e2.symm.trans e2'
        exact ⟨l, m, e1, e2, h1, by omega⟩)
      refine ⟨s', e', ⟨?_, ?_, c'.agree⟩⟩
      · rw [c'.frame, c.frame]
      · intro f hf; rw [c'.other f hf, c.other f hf])
  refine ⟨t', e, by rw [← hs]; exact c.frame, fun f hf => c.other f ?_, fun f g hfg => ?_⟩
  · revert hf; cases f <;> decide
  · have hp : (f, g) ∈ copiedMembers := by
      revert hfg; cases f <;> intro hfg <;> simp [verbatim] at hfg <;> subst hfg <;> decide
    obtain ⟨l, m, e1, e2, h1⟩ := c.agree _ hp
    obtain ⟨m', e2', h2⟩ := hsrc _ hp
    cases e2.symm.trans e2'
    rw [e1, e2, h1.all (by omega)]

/-! ### derived quantities -/

/-- State of the second loop before row `k`. -/
structure Computed (TI : List Cpx) (K FF : List Dbl) (m : Nat) (t0 t : TauD) : Prop where
  frame : t = { t0 with arr := t.arr, carr := t.carr }
  other : ∀ f, f ≠ .k → f ≠ .F → t.arr f = t0.arr f
  cother : ∀ f, f ≠ .tIn → t.carr f = t0.carr f
  tIn : ∃ l, t.carr .tIn = some l ∧ AgreeTo m l TI
  k : ∃ l, t.arr .k = some l ∧ AgreeTo m l K
  F : ∃ l, t.arr .F = some l ∧ AgreeTo m l FF

theorem rdP_elem {α : Type} {p : Option (List α)} {n : Nat} {v : α} (h : elem p n = some v) :
    rdP p n = .ok v := by
  cases p with
  | none => simp [elem] at h
  | some l => simp only [elem, Option.bind_some] at h; rw [rdP_some, rd_eq_ok, h]

theorem elem_some_of_lt {α : Type} {p : Option (List α)} {l : List α} {n : Nat} (h : p = some l)
    (hn : n < l.length) : ∃ v, elem p n = some v := ⟨l[n], by simp [elem, h, hn]⟩

/-- The vector whose `n`th entry is the Fresnel scale of row `n`. -/
def fresnelVec (N : Num Dbl Cpx) (d : DLP) (n : Nat) : List Dbl :=
  (List.range n).map fun i => N.cylFresnelScaleDeg
    (N.freqToWavelength ((elem (d.arr .fSky) i).getD .nan)) ((elem (d.arr .D) i).getD .nan)
    ((elem (d.arr .phi) i).getD .nan) ((elem (d.arr .B) i).getD .nan)

def amplitudeVec (N : Num Dbl Cpx) (d : DLP) (n : Nat) : List Cpx :=
  (List.range n).map fun i => N.polard (N.sqrt ((elem (d.arr .pNorm) i).getD .nan))
    (N.neg ((elem (d.arr .phaseDeg) i).getD .nan))

def wavenumberVec (N : Num Dbl Cpx) (d : DLP) (n : Nat) : List Dbl :=
  (List.range n).map fun i => N.wavelengthToWavenumber
    (N.freqToWavelength ((elem (d.arr .fSky) i).getD .nan))

theorem range_map_get {α : Type} {n i : Nat} (f : Nat → α) (h : i < n) :
    ((List.range n).map f)[i]? = some (f i) := by simp [h]

theorem computeRow_spec (N : Num Dbl Cpx) {d : DLP} {t0 t : TauD} {i : Nat} (hw : WellFormed d)
    (hi : i < d.arrSize) (hD : t0.arr .D = d.arr .D) (hphi : t0.arr .phi = d.arr .phi)
    (hB : t0.arr .B = d.arr .B)
    (c : Computed (amplitudeVec N d d.arrSize) (wavenumberVec N d d.arrSize)
      (fresnelVec N d d.arrSize) i t0 t) :
    ∃ t', computeRow N d i t = .ok t' ∧ Computed (amplitudeVec N d d.arrSize)
      (wavenumberVec N d d.arrSize) (fresnelVec N d d.arrSize) (i + 1) t0 t' := by
  have hel : ∀ f, f ≠ .rawTauThreshold → ∃ v, elem (d.arr f) i = some v := by
    intro f hf
    obtain ⟨l, h1, h2⟩ := hw f hf
    exact elem_some_of_lt h1 (by omega)
  obtain ⟨p, hp⟩ := hel .pNorm (by decide)
  obtain ⟨ph, hph⟩ := hel .phaseDeg (by decide)
  obtain ⟨f, hf⟩ := hel .fSky (by decide)
  obtain ⟨dd, hdd⟩ := hel .D (by decide)
  obtain ⟨phi, hphi'⟩ := hel .phi (by decide)
  obtain ⟨b, hb⟩ := hel .B (by decide)
  obtain ⟨lt, ht1, ht2⟩ := c.tIn
  obtain ⟨lk, hk1, hk2⟩ := c.k
  obtain ⟨lF, hF1, hF2⟩ := c.F
  have lenT : i < lt.length := by rw [ht2.1]; simpa [amplitudeVec] using hi
  have lenK : i < lk.length := by rw [hk2.1]; simpa [wavenumberVec] using hi
  have lenF : i < lF.length := by rw [hF2.1]; simpa [fresnelVec] using hi
  have eT : (amplitudeVec N d d.arrSize)[i]? = some (N.polard (N.sqrt p) (N.neg ph)) := by
    rw [amplitudeVec, range_map_get _ hi, hp, hph]; rfl
  have eK : (wavenumberVec N d d.arrSize)[i]? =
      some (N.wavelengthToWavenumber (N.freqToWavelength f)) := by
    rw [wavenumberVec, range_map_get _ hi, hf]; rfl
  have eF : (fresnelVec N d d.arrSize)[i]? =
      some (N.cylFresnelScaleDeg (N.freqToWavelength f) dd phi b) := by
    rw [fresnelVec, range_map_get _ hi, hf, hdd, hphi', hb]; rfl
  set tv := N.polard (N.sqrt p) (N.neg ph) with htv
  set kv := N.wavelengthToWavenumber (N.freqToWavelength f) with hkv
  set fv := N.cylFresnelScaleDeg (N.freqToWavelength f) dd phi b with hfv
  let t1 := t.setC .tIn (some (lt.set i tv))
  let t2 := t1.setArr .k (some (lk.set i kv))
  let t3 := t2.setArr .F (some (lF.set i fv))
  have c1 : cstoreAt .tIn i tv t = .ok t1 := cstoreAt_spec ht1 lenT
  have c2 : storeAt .k i kv t1 = .ok t2 := storeAt_spec (by exact hk1) lenK
  have c3 : storeAt .F i fv t2 = .ok t3 := storeAt_spec (by simpa [t2, t1, Tau.setArr, Tau.setC] using hF1) lenF
  have rD : t2.arr .D = d.arr .D := by
    rw [← hD, ← c.other .D (by decide) (by decide)]; rfl
  have rphi : t2.arr .phi = d.arr .phi := by
    rw [← hphi, ← c.other .phi (by decide) (by decide)]; rfl
  have rB : t2.arr .B = d.arr .B := by
    rw [← hB, ← c.other .B (by decide) (by decide)]; rfl
  refine ⟨t3, ?_, ⟨?_, ?_, ?_, ?_, ?_, ?_⟩⟩
  · rw [computeRow, rdP_elem hp, Res.ok_bind, rdP_elem hph, Res.ok_bind, c1, Res.ok_bind,
      rdP_elem hf, Res.ok_bind]
    show (storeAt .k i kv t1 >>= _) = _
    rw [c2, Res.ok_bind, rD, rdP_elem hdd, Res.ok_bind, rphi,
      rdP_elem hphi', Res.ok_bind, rB, rdP_elem hb, Res.ok_bind, c3]
  · show t3 = _
    have := c.frame
    simp only [t3, t2, t1, Tau.setArr, Tau.setC]
    rw [this]
  · intro g h1 h2
    simp [t3, t2, t1, Tau.setArr, Tau.setC, h1, h2, c.other g h1 h2]
  · intro g h1
    simp [t3, t2, t1, Tau.setArr, Tau.setC, h1, c.cother g h1]
  · exact ⟨lt.set i tv, by simp [t3, t2, t1, Tau.setArr, Tau.setC], ht2.set eT⟩
  · exact ⟨lk.set i kv, by simp [t3, t2, t1, Tau.setArr, Tau.setC], hk2.set eK⟩
  · exact ⟨lF.set i fv, by simp [t3, t2, t1, Tau.setArr, Tau.setC], hF2.set eF⟩

theorem computeData_spec (N : Num Dbl Cpx) {d : DLP} {t : TauD} (h : t.err = none)
    (hd : d.errorOccurred = false) (hs : t.arrSize = d.arrSize) (hw : WellFormed d)
    (hD : t.arr .D = d.arr .D) (hphi : t.arr .phi = d.arr .phi) (hB : t.arr .B = d.arr .B)
    (h1 : ∃ l, t.carr .tIn = some l ∧ l.length = d.arrSize)
    (h2 : ∃ l, t.arr .k = some l ∧ l.length = d.arrSize)
    (h3 : ∃ l, t.arr .F = some l ∧ l.length = d.arrSize) :
    ∃ t', computeData N d t = .ok t' ∧ Computed (amplitudeVec N d d.arrSize)
      (wavenumberVec N d d.arrSize) (fresnelVec N d d.arrSize) d.arrSize t t' := by
  rw [computeData, guarded_none _ h]
  simp only [hd, hs, ne_eq, not_true_eq_false, if_false, Bool.false_eq_true]
  obtain ⟨l1, e1, s1⟩ := h1
  obtain ⟨l2, e2, s2⟩ := h2
  obtain ⟨l3, e3, s3⟩ := h3
  obtain ⟨t', e, c⟩ := forRange_total (Computed (amplitudeVec N d d.arrSize)
      (wavenumberVec N d d.arrSize) (fresnelVec N d d.arrSize) · t) (computeRow N d) d.arrSize 0 t
    ⟨rfl, fun _ _ _ => rfl, fun _ _ => rfl,
      ⟨l1, e1, by simp [amplitudeVec, s1], by simp⟩,
      ⟨l2, e2, by simp [wavenumberVec, s2], by simp⟩,
      ⟨l3, e3, by simp [fresnelVec, s3], by simp⟩⟩
    (fun i s _ hi c => computeRow_spec N hw (by omega) hD hphi hB c)
  exact ⟨t', e, by simpa using c⟩

theorem elem_lt {α : Type} {p : Option (List α)} {l : List α} {n : Nat} {v : α} (h : p = some l)
    (he : elem p n = some v) : n < l.length := by
  by_contra hc
  simp only [elem, h, Option.bind_some, List.getElem?_eq_none (Nat.le_of_not_lt hc)] at he
  cases he

theorem copyDLPData_spec (L : Lib) (A : Alloc) (N : Num Dbl Cpx) {d : DLP} {res : Dbl}
    (hd : d.errorOccurred = false) (hs : 2 ≤ d.arrSize) (hw : WellFormed d) :
    ∃ t', copyDLPData A N (some d) { tauInit L with res := res } = .ok t' ∧
      (t'.err = none → CreatedFrom N d res t') ∧ ((∀ i, A.ok i = true) → t'.err = none) ∧
      t' = { tauInit L with res := res, arrSize := d.arrSize, dx := t'.dx, arr := t'.arr,
                            carr := t'.carr, err := t'.err } := by
  rw [copyDLPData, guarded_none _ rfl]
  have hle : ¬ d.arrSize ≤ 1 := by omega
  simp only [hd, hle, if_false, Bool.false_eq_true]
  set t0 : TauD := { tauInit L with res := res, arrSize := d.arrSize } with ht0
  have hne : t0.arrSize ≠ 0 := by simp only [ht0]; omega
  obtain ⟨t1, e1, a1⟩ := mallocMembers_spec A (t := t0) rfl hne (fun _ => rfl) (fun _ => rfl)
  have e1' : mallocMembers A { tauInit L with res := res, arrSize := d.arrSize } = .ok t1 := e1
  rw [e1', Res.ok_bind]
  by_cases h1 : t1.err = none
  swap
  · refine ⟨t1, by simp [isSome_of_err h1], fun e => absurd e h1, a1.noerr, ?_⟩
    have := a1.same
    unfold SameScalars at this
    rw [this]
  simp only [h1, Option.isSome_none, Bool.false_eq_true, if_false]
  obtain ⟨g1, g2⟩ := a1.good h1
  have s1 : t1.arrSize = d.arrSize := a1.same.size
  obtain ⟨t2, e2, f2, o2, v2⟩ := copyDLPMembers_spec h1 hd s1 hw (fun p hp => by
    rw [s1]; exact g1 p.1 (by revert p; decide))
  rw [e2, Res.ok_bind]
  have h2 : t2.err = none := by rw [f2]; exact h1
  have s2 : t2.arrSize = d.arrSize := by rw [f2]; exact s1
  obtain ⟨t3, e3, c⟩ := computeData_spec N h2 hd s2 hw (v2 _ _ rfl) (v2 _ _ rfl) (v2 _ _ rfl)
    (by rw [f2]; exact g2 _ (by simp)) (by rw [o2 _ rfl]; exact g1 _ (by decide))
    (by rw [o2 _ rfl]; exact g1 _ (by decide))
  rw [e3, Res.ok_bind]
  have hrho : t3.arr .rho = d.arr .rho := by rw [c.other _ (by decide) (by decide), v2 _ _ rfl]
  obtain ⟨lr, hr1, hr2⟩ := hw .rho (by decide)
  obtain ⟨r0, hr0⟩ := elem_some_of_lt (n := 0) hr1 (by omega)
  obtain ⟨r1, hr1'⟩ := elem_some_of_lt (n := 1) hr1 (by omega)
  have h3 : t3.err = none := by rw [c.frame]; exact h2
  rw [hrho, rdP_elem hr1', Res.ok_bind, rdP_elem hr0, Res.ok_bind]
  obtain ⟨l1, x1, y1⟩ := c.tIn
  obtain ⟨l2, x2, y2⟩ := c.k
  obtain ⟨l3, x3, y3⟩ := c.F
  have z1 := y1.all (by simp [amplitudeVec])
  have z2 := y2.all (by simp [wavenumberVec])
  have z3 := y3.all (by simp [fresnelVec])
  subst z1 z2 z3
  have q1 := a1.same
  unfold SameScalars at q1
  have hlen : ∀ f n v, f ≠ .rawTauThreshold → elem (d.arr f) n = some v → n < d.arrSize := by
    intro f n v hf he
    obtain ⟨l, p, q⟩ := hw f hf
    rw [← q]; exact elem_lt p he
  refine ⟨_, rfl, fun _ => ⟨?_, ?_, ?_, ⟨_, x1, by simp [amplitudeVec]⟩,
    ⟨_, x2, by simp [wavenumberVec]⟩, ⟨_, x3, by simp [fresnelVec]⟩, ?_, ?_, ?_, ?_, ?_⟩,
    fun _ => h3, ?_⟩
  · show t3.arrSize = _
    rw [c.frame]; exact s2
  · show t3.res = _
    rw [c.frame]; show t2.res = _
    rw [f2]; show t1.res = _
    rw [q1]
  · intro f g hfg
    show t3.arr f = _
    rw [c.other f (by rintro rfl; cases hfg) (by rintro rfl; cases hfg), v2 f g hfg]
  · intro n p ph hp hph
    have hn := hlen _ n p (by decide) hp
    simp only [x1, elem, Option.bind_some]
    rw [amplitudeVec, range_map_get _ hn, hp, hph]; rfl
  · intro n f hf
    have hn := hlen _ n f (by decide) hf
    simp only [x2, elem, Option.bind_some]
    rw [wavenumberVec, range_map_get _ hn, hf]; rfl
  · intro n f dd phi b hf hdd hphi hb
    have hn := hlen _ n f (by decide) hf
    simp only [x3, elem, Option.bind_some]
    rw [fresnelVec, range_map_get _ hn, hf, hdd, hphi, hb]; rfl
  · intro r0' r1'' k0 k1
    rw [hr0] at k0; rw [hr1'] at k1
    cases k0; cases k1; rfl
  · refine ⟨?_, ?_, ?_, ?_, ?_, ?_⟩
    · show t3.arr .w = none
      rw [c.other _ (by decide) (by decide), o2 _ rfl, a1.other _ (by decide)]; rfl
    · show t3.arr .tauThreshold = none
      rw [c.other _ (by decide) (by decide), o2 _ rfl, a1.other _ (by decide)]; rfl
    · show t3.carr .tOut = none
      rw [c.cother _ (by decide), f2]; show t1.carr .tOut = none
      rw [a1.cother _ (by decide)]; rfl
    · show t3.carr .tFwd = none
      rw [c.cother _ (by decide), f2]; show t1.carr .tFwd = none
      rw [a1.cother _ (by decide)]; rfl
    · show t3.start = 0
      rw [c.frame]; show t2.start = 0
      rw [f2]; show t1.start = 0
      rw [q1]; rfl
    · show t3.nUsed = 0
      rw [c.frame]; show t2.nUsed = 0
      rw [f2]; show t1.nUsed = 0
      rw [q1]; rfl
  · rw [c.frame, f2, q1]

theorem createFromDLP_some (L : Lib) (A : Alloc) (N : Num Dbl Cpx) (d : DLP) (res : Dbl) :
    createFromDLP L A N (some d) res =
      if !A.ok 0 then .ok none
      else if d.errorOccurred then .ok (some ((tauInit L).fail .createFromDLP 38))
      else if res.le (.fin 0) then .ok (some ((tauInit L).fail .createFromDLP 50))
      else (do
        let t ← copyDLPData A N (some d) { tauInit L with res := res }
        let t ← checkGeometry L N t
        .ok (some t)) := rfl

end Verif
