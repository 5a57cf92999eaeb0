import Verif.Proofs.Frame
import Verif.Proofs.Window
import Verif.Proofs.Checks

/-! What the dispatcher `diffractionCorrection`, `tauFinish` and `reconstruction` change. -/
namespace Verif

/-- The schedule of the environment partitions every loop. -/
def Env.Lawful (E : Env) : Prop := ∀ n, Covers (E.chunks n) n

/-- `u` is `t` except for the error, the wavenumbers (forward Legendre only) and the
entries `start .. start + nUsed` of `T_out`. -/
structure DcFrame (t u : TauD) : Prop where
  same : u = { (t.setArr .k (u.arr .k)).setC .tOut (u.carr .tOut) with err := u.err }
  k : (t.psinum ≠ .legendre ∨ t.useFwd = false) → u.arr .k = t.arr .k
  kLen : ∀ l, t.arr .k = some l → ∃ l', u.arr .k = some l' ∧ l'.length = l.length
  out : ∀ l, t.carr .tOut = some l → ∃ l', u.carr .tOut = some l' ∧ l'.length = l.length ∧
    ∀ i, ¬ (t.start ≤ i ∧ i < t.start + (t.nUsed + 1)) → l'[i]? = l[i]?

theorem DcFrame.start {t u : TauD} (h : DcFrame t u) : u.start = t.start := by rw [h.same]; rfl
theorem DcFrame.nUsed {t u : TauD} (h : DcFrame t u) : u.nUsed = t.nUsed := by rw [h.same]; rfl
theorem DcFrame.arrSize {t u : TauD} (h : DcFrame t u) : u.arrSize = t.arrSize := by
  rw [h.same]; rfl
theorem DcFrame.useFwd {t u : TauD} (h : DcFrame t u) : u.useFwd = t.useFwd := by rw [h.same]; rfl
theorem DcFrame.dx {t u : TauD} (h : DcFrame t u) : u.dx = t.dx := by rw [h.same]; rfl
theorem DcFrame.arr {t u : TauD} (h : DcFrame t u) {f : Fld} (hf : f ≠ .k) :
    u.arr f = t.arr f := by rw [h.same]; simp [Tau.setArr, Tau.setC, hf]
theorem DcFrame.carr {t u : TauD} (h : DcFrame t u) {f : CFld} (hf : f ≠ .tOut) :
    u.carr f = t.carr f := by rw [h.same]; simp [Tau.setArr, Tau.setC, hf]

theorem DcFrame.of_out {P : Nat → Prop} {t v : TauD} (h : OutOnly P t v)
    (hP : ∀ i, P i → t.start ≤ i ∧ i < t.start + (t.nUsed + 1)) : DcFrame t v where
  same := by
    have h1 : v.arr = t.arr := h.arr
    have h2 : v.err = t.err := h.err
    rw [h1, h2, setArr_self]
    exact h.same
  k := fun _ => by rw [h.arr]
  kLen := fun l hl => ⟨l, by rw [h.arr, hl], rfl⟩
  out := (h.mono hP).out

theorem DcFrame.fail {t v : TauD} (h : DcFrame t v) (fn : Fn) (l : Nat) :
    DcFrame t (v.fail fn l) where
  same := by
    have := h.same
    rw [Tau.fail]
    conv_lhs => rw [this]
  k := h.k
  kLen := h.kLen
  out := h.out

theorem DcFrame.refl (t : TauD) : DcFrame t t :=
  DcFrame.of_out (OutOnly.refl (fun _ => False) t) (fun _ h => h.elim)

/-- Frame of the dispatcher, and what success means. -/
theorem dc_frame {N : Num Dbl Cpx} {L : Lib} {sem : Sem} (hs : IgnoresOut sem) {Z : FFT} {E : Env}
    (hE : E.Lawful) {t u : TauD} (h : t.err = none)
    (e : diffractionCorrection N L sem Z E t = .ok u) :
    DcFrame t u ∧ (u.err = none → CoreThere t ∧ checkDataRange N t = .ok t) := by
  have failed : ∀ fn l, u = t.fail fn l →
      DcFrame t u ∧ (u.err = none → CoreThere t ∧ checkDataRange N t = .ok t) := by
    rintro fn l rfl
    exact ⟨(DcFrame.refl t).fail fn l, by simp⟩
  rw [diffractionCorrection, guarded_none _ h] at e
  split at e
  · rcases dcFresnel_ok hs h (hE _) e with ⟨fn, l, hu⟩ | ⟨hc, hd, ws, nm, -, -, hF⟩
    · exact failed fn l hu
    · exact ⟨DcFrame.of_out hF.toOutOnly fun i hi => hi, fun _ => ⟨hc, hd⟩⟩
  split at e
  · rename_i hleg
    rcases dcLegendre_ok hs h e with ⟨fn, l, hu⟩ | ⟨hc, hd, t1, ht1, hrest⟩
    · exact failed fn l hu
    have key : DcFrame t t1 ∧ ∀ v, DcFrame t1 v → DcFrame t v := by
      split at ht1
      · rename_i hf
        obtain ⟨k, k', hk, ht1, hl, -, -⟩ := negateK_ok (by omega) ht1
        have base : ∀ v, DcFrame t1 v → DcFrame t v := by
          intro v hv
          have e0 := hv.same
          subst ht1
          refine ⟨?_, ?_, ?_, hv.out⟩
          · conv_lhs => rw [e0]
            rw [setArr_setArr]
          · rintro (a | a)
            · exact absurd hleg a
            · rw [hf] at a; cases a
          · intro l h'
            rw [hk] at h'; cases h'
            obtain ⟨l', a, b⟩ := hv.kLen k' (by simp)
            exact ⟨l', a, by omega⟩
        exact ⟨base _ (DcFrame.refl _), base⟩
      · subst ht1
        exact ⟨DcFrame.refl _, fun v hv => hv⟩
    have hs1 := key.1.start
    have hn1 := key.1.nUsed
    rcases hrest with ⟨k, v, fn, l, hk, hv, rfl⟩ | ⟨i, -, hF⟩
    · refine ⟨(key.2 v (DcFrame.of_out hv fun i hi => ?_)).fail fn l, by simp⟩
      rw [hs1, hn1]; omega
    · refine ⟨key.2 u (DcFrame.of_out hF.toOutOnly fun i hi => ?_), fun _ => ⟨hc, hd⟩⟩
      rw [hs1, hn1]; omega
  split at e
  · rcases dcSimpleFFT_ok h e with ⟨fn, l, hu⟩ | ⟨hc, hd, hF⟩
    · exact failed fn l hu
    · exact ⟨DcFrame.of_out hF.toOutOnly fun i hi => by omega, fun _ => ⟨hc, hd⟩⟩
  split at e
  · rcases dcNewton_ok hs h (hE _) e with ⟨fn, l, hu⟩ | ⟨hc, hd, f, r0, r1, ws, nm, -, -, -, -, -, hF⟩
    · exact failed fn l hu
    · exact ⟨DcFrame.of_out hF.toOutOnly fun i hi => by omega, fun _ => ⟨hc, hd⟩⟩
  split at e
  · rcases dcPolyNewton_ok hs h e with ⟨k, v, fn, l, hk, hv, rfl⟩ | ⟨hc, hd, f, i, -, -, hF⟩
    · exact ⟨(DcFrame.of_out hv fun i hi => by omega).fail fn l, by simp⟩
    · exact ⟨DcFrame.of_out hF.toOutOnly fun i hi => by omega, fun _ => ⟨hc, hd⟩⟩
  · cases e; exact failed _ _ rfl

/-! ### Finish -/

theorem rdSlice_eq {α : Type} {p : Option (List α)} : ∀ {len start : Nat} {r : List α},
    rdSlice p start len = .ok r → len = 0 ∧ r = [] ∨
      ∃ l, p = some l ∧ start + len ≤ l.length ∧ r = (l.drop start).take len := by
  intro len
  induction len with
  | zero => intro start r h; cases h; exact .inl ⟨rfl, rfl⟩
  | succ k ih =>
    intro start r h
    refine .inr ?_
    rw [rdSlice, Res.bind_eq_ok] at h
    obtain ⟨x, hx, h⟩ := h
    rw [Res.bind_eq_ok] at h
    obtain ⟨xs, hxs, h⟩ := h
    cases h
    cases p with
    | none => cases hx
    | some l =>
      rw [rdP_some, rd_eq_ok] at hx
      have hlt := (List.getElem?_eq_some_iff.1 hx).1
      refine ⟨l, rfl, ?_⟩
      rcases ih hxs with ⟨rfl, rfl⟩ | ⟨l', hl, hle, rfl⟩
      · refine ⟨by omega, ?_⟩
        rw [List.drop_eq_getElem_cons hlt, (List.getElem?_eq_some_iff.1 hx).2]
        simp
      · cases hl
        refine ⟨by omega, ?_⟩
        rw [List.drop_eq_getElem_cons hlt, (List.getElem?_eq_some_iff.1 hx).2, List.take_succ_cons]

/-- One array is cut to the processing range. -/
def Cut {α : Type} (start len : Nat) (p q : Option (List α)) : Prop :=
  ∃ r, q = some r ∧ rdSlice p start len = .ok r

theorem sliceAll_ok {start len : Nat} : ∀ (fs : List Fld) {t u : TauD}, fs.Nodup →
    sliceAll fs start len t = .ok u →
    u = { t with arr := u.arr } ∧ (∀ f ∈ fs, Cut start len (t.arr f) (u.arr f)) ∧
      ∀ f, f ∉ fs → u.arr f = t.arr f := by
  intro fs
  induction fs with
  | nil => intro t u _ e; cases e; simp
  | cons f fs ih =>
    intro t u hd e
    rw [sliceAll, Res.bind_eq_ok] at e
    obtain ⟨t1, e1, e⟩ := e
    rw [sliceFld, Res.bind_eq_ok] at e1
    obtain ⟨l, el, e1⟩ := e1
    cases e1
    have hf := (List.nodup_cons.1 hd).1
    obtain ⟨a, b, c⟩ := ih (List.nodup_cons.1 hd).2 e
    refine ⟨a, ?_, ?_⟩
    · intro g hg
      rcases List.mem_cons.1 hg with rfl | hg
      · exact ⟨l, by rw [c g hf]; simp, el⟩
      · have : g ≠ f := fun h => hf (h ▸ hg)
        have := b g hg
        simpa [Tau.setArr, ‹g ≠ f›] using this
    · intro g hg
      rw [List.mem_cons, not_or] at hg
      rw [c g hg.2]
      simp [Tau.setArr, hg.1]

/-- What a successful `Finish` did. -/
structure Finished (t u : TauD) : Prop where
  same : u = { t with arr := u.arr, carr := u.carr, arrSize := t.nUsed }
  cut : ∀ f ∈ slicedFields, Cut t.start t.nUsed (t.arr f) (u.arr f)
  rest : ∀ f, f ∉ slicedFields → u.arr f = t.arr f
  tIn : Cut t.start t.nUsed (t.carr .tIn) (u.carr .tIn)
  tOut : Cut t.start t.nUsed (t.carr .tOut) (u.carr .tOut)
  tFwd : if t.useFwd then Cut t.start t.nUsed (t.carr .tFwd) (u.carr .tFwd)
    else u.carr .tFwd = t.carr .tFwd

theorem tauFinish_ok {t u : TauD} (h : t.err = none) (e : tauFinish t = .ok u) : Finished t u := by
  rw [tauFinish, guarded_none _ h] at e
  simp only [sliceC, Res.bind_eq_ok] at e
  obtain ⟨t1, ⟨l1, e1, h1⟩, t2, ⟨l2, e2, h2⟩, t3, e3, e⟩ := e
  cases h1; cases h2
  obtain ⟨a, b, c⟩ := sliceAll_ok slicedFields (by decide) e3
  have hc3 : t3.carr = ((t.setC .tIn (some l1)).setC .tOut (some l2)).carr := by rw [a]
  have hin : t3.carr .tIn = some l1 := by rw [hc3]; simp [Tau.setC]
  have hout : t3.carr .tOut = some l2 := by rw [hc3]; simp [Tau.setC]
  have hfwd : t3.carr .tFwd = t.carr .tFwd := by rw [hc3]; simp [Tau.setC]
  have e2' : rdSlice (t.carr .tOut) t.start t.nUsed = .ok l2 := by simpa [Tau.setC] using e2
  have hn3 : t3.nUsed = t.nUsed := by rw [a]; rfl
  have hs3 : t3.start = t.start := by rw [a]; rfl
  have hf3 : t3.useFwd = t.useFwd := by rw [a]; rfl
  split at e
  · rename_i hf
    have hf' : t.useFwd = true := by rw [← hf3]; exact hf
    rw [Res.bind_eq_ok] at e
    obtain ⟨l, el, e⟩ := e
    cases e
    have el' : rdSlice (t.carr .tFwd) t.start t.nUsed = .ok l := by
      rw [← hfwd, ← hs3, ← hn3]; exact el
    refine ⟨?_, b, c, ⟨l1, ?_, e1⟩, ⟨l2, ?_, e2'⟩, ?_⟩
    · rw [a]; rfl
    · rw [setC_carr_ne _ _ (by decide)]; exact hin
    · rw [setC_carr_ne _ _ (by decide)]; exact hout
    · simp only [hf', if_true]; exact ⟨l, by simp, el'⟩
  · rename_i hf
    have hf' : t.useFwd = false := by rw [← hf3]; simpa using hf
    cases e
    refine ⟨?_, b, c, ⟨l1, hin, e1⟩, ⟨l2, hout, e2'⟩, ?_⟩
    · rw [a]; rfl
    · simp only [hf', Bool.false_eq_true, if_false]; exact hfwd

/-! ### Reconstruction -/

/-- `getWindowWidth` changes the range, the location, the error and `w_km_vals` only. -/
structure GwwFrame (t u : TauD) : Prop where
  same : u = { t with range0 := u.range0, range1 := u.range1, start := u.start, nUsed := u.nUsed,
                      err := u.err, arr := u.arr }
  arr : ∀ f, f ≠ .w → u.arr f = t.arr f
  w : t.arr .w ≠ none → u.arr .w = t.arr .w
  ok : u.err = none → t.arr .w = none ∧ u.arr .w ≠ none ∧ u.start + u.nUsed ≤ u.arrSize

theorem gwwWidths_ok {N : Num Dbl Cpx} {L : Lib} {t u : TauD} (e : gwwWidths N L t = .ok u) :
    ∃ w, u = t.setArr .w (some w) := by
  unfold gwwWidths at e
  rw [Res.bind_eq_ok] at e
  obtain ⟨w, -, e⟩ := e
  cases e
  exact ⟨w, rfl⟩

theorem cutLeft_ok {N : Num Dbl Cpx} {t : TauD} {s : Stage TauD} (e : cutLeft N t = .ok s) :
    (∃ l, s = .stop (t.fail .getWindowWidth l)) ∨ ∃ a b, s = .go { t with start := a, nUsed := b } := by
  unfold cutLeft at e
  simp only [Res.bind_eq_ok] at e
  obtain ⟨leg, -, r0, -, e⟩ := e
  split at e
  · cases e; exact .inl ⟨_, rfl⟩
  · split at e
    · cases e; exact .inr ⟨_, _, rfl⟩
    · cases e; exact .inr ⟨_, _, rfl⟩

theorem cutRight_ok {N : Num Dbl Cpx} {t : TauD} {s : Stage TauD} (e : cutRight N t = .ok s) :
    (∃ l, s = .stop (t.fail .getWindowWidth l)) ∨ ∃ b, s = .go { t with nUsed := b } := by
  unfold cutRight at e
  simp only [Res.bind_eq_ok] at e
  obtain ⟨leg, -, last, -, rl, -, e⟩ := e
  split at e
  · cases e; exact .inl ⟨_, rfl⟩
  · split at e
    · cases e; exact .inr ⟨_, rfl⟩
    · cases e; exact .inr ⟨_, rfl⟩

theorem gwwStart_ok {t : TauD} {s : Stage TauD} (e : gwwStart t = .ok s) :
    (∃ l, s = .stop (t.fail .getWindowWidth l)) ∨
      ∃ x a, s = .go { t with range0 := x, start := a } := by
  unfold gwwStart at e
  simp only [Res.bind_eq_ok] at e
  obtain ⟨r0, -, e⟩ := e
  split at e
  · cases e; exact .inr ⟨_, _, rfl⟩
  · simp only [Res.bind_eq_ok] at e
    obtain ⟨last, -, rl, -, e⟩ := e
    split at e
    · cases e; exact .inl ⟨_, rfl⟩
    · simp only [Res.bind_eq_ok] at e
      obtain ⟨n, -, rn, -, e⟩ := e
      cases e; exact .inr ⟨_, _, rfl⟩

theorem gwwEnd_ok {t : TauD} {s : Stage TauD} (e : gwwEnd t = .ok s) :
    (∃ l, s = .stop (t.fail .getWindowWidth l)) ∨
      ∃ x a, s = .go { t with range1 := x, nUsed := a } := by
  unfold gwwEnd at e
  simp only [Res.bind_eq_ok] at e
  obtain ⟨last, -, rl, -, e⟩ := e
  split at e
  · cases e; exact .inr ⟨_, _, rfl⟩
  · simp only [Res.bind_eq_ok] at e
    obtain ⟨r0, -, e⟩ := e
    split at e
    · cases e; exact .inl ⟨_, rfl⟩
    · simp only [Res.bind_eq_ok] at e
      obtain ⟨n, -, rn, -, e⟩ := e
      cases e; exact .inr ⟨_, _, rfl⟩

theorem getWindowWidth_frame {N : Num Dbl Cpx} {L : Lib} {t u : TauD} (h : t.err = none)
    (e : getWindowWidth N L t = .ok u) : GwwFrame t u := by
  rw [getWindowWidth, guarded_none _ h, Res.bind_eq_ok] at e
  obtain ⟨s1, e1, e⟩ := e
  rcases gwwStart_ok e1 with ⟨l, rfl⟩ | ⟨x0, a0, rfl⟩
  · cases e; exact ⟨rfl, fun _ _ => rfl, fun _ => rfl, by simp⟩
  simp only [Res.bind_eq_ok] at e
  obtain ⟨s2, e2, e⟩ := e
  rcases gwwEnd_ok e2 with ⟨l, rfl⟩ | ⟨x1, n1, rfl⟩
  · cases e; exact ⟨rfl, fun _ _ => rfl, fun _ => rfl, by simp⟩
  simp only at e
  split at e
  · cases e; exact ⟨rfl, fun _ _ => rfl, fun _ => rfl, by simp⟩
  rename_i hw
  have hw' : t.arr .w = none := by
    cases hh : t.arr .w with
    | none => rfl
    | some l => simp [hh] at hw
  rw [Res.bind_eq_ok] at e
  obtain ⟨t3, e3, e⟩ := e
  obtain ⟨w, rfl⟩ := gwwWidths_ok e3
  rw [Res.bind_eq_ok] at e
  obtain ⟨s4, e4, e⟩ := e
  have arrs : ∀ f, f ≠ Fld.w → (if f = .w then some w else t.arr f) = t.arr f := by
    intro f hf; simp [hf]
  rcases cutLeft_ok e4 with ⟨l, rfl⟩ | ⟨a4, b4, rfl⟩
  · cases e; exact ⟨rfl, arrs, fun c => absurd hw' c, by simp⟩
  simp only [Res.bind_eq_ok] at e
  obtain ⟨s5, e5, e⟩ := e
  rcases cutRight_ok e5 with ⟨l, rfl⟩ | ⟨b5, rfl⟩
  · cases e; exact ⟨rfl, arrs, fun c => absurd hw' c, by simp⟩
  simp only at e
  split at e
  · cases e; exact ⟨rfl, arrs, fun c => absurd hw' c, by simp⟩
  split at e
  · cases e; exact ⟨rfl, arrs, fun c => absurd hw' c, by simp⟩
  rename_i hle
  cases e
  refine ⟨rfl, arrs, fun c => absurd hw' c, fun _ => ⟨hw', ?_, ?_⟩⟩
  · simp [Tau.setArr]
  · simpa using hle

/-- `checkOccType` either fails or changes `dx` and arrays only. -/
theorem reverseAll_frame : ∀ (fs : List Fld) {n : Nat} {t u : TauD}, reverseAll fs n t = .ok u →
    u = { t with arr := u.arr } ∧ (∀ f, f ∉ fs → u.arr f = t.arr f) ∧
    ∀ f l, t.arr f = some l → ∃ l', u.arr f = some l' ∧ l'.length = l.length := by
  intro fs
  induction fs with
  | nil => intro n t u e; cases e; exact ⟨rfl, fun _ _ => rfl, fun f l h => ⟨l, h, rfl⟩⟩
  | cons f fs ih =>
    intro n t u e
    rw [reverseAll, Res.bind_eq_ok] at e
    obtain ⟨t1, e1, e⟩ := e
    unfold reverseFld at e1
    split at e1
    · cases e1
    rename_i l hl
    split at e1
    swap; · cases e1
    rename_i hn
    cases e1
    obtain ⟨a, b, c⟩ := ih e
    refine ⟨a, ?_, ?_⟩
    · intro g hg
      rw [List.mem_cons, not_or] at hg
      rw [b g hg.2]; simp [Tau.setArr, hg.1]
    · intro g m hm
      by_cases hgf : g = f
      · subst hgf
        rw [hl] at hm; cases hm
        obtain ⟨l', d1, d2⟩ := c g ((l.take n).reverse ++ l.drop n) (by simp)
        refine ⟨l', d1, ?_⟩
        rw [d2]; simp; omega
      · exact c g m (by simpa [Tau.setArr, hgf] using hm)

structure OccFrame (t u : TauD) : Prop where
  same : u = { t with dx := u.dx, arr := u.arr, err := u.err }
  fail : u.err ≠ none → u.arr = t.arr ∧ u.dx = t.dx
  ok : u.err = none → 1 < t.arrSize ∧ t.arr .rhoDot ≠ none
  arr : ∀ f, f ∉ reversedFields → u.arr f = t.arr f
  len : ∀ f l, t.arr f = some l → ∃ l', u.arr f = some l' ∧ l'.length = l.length

theorem absRhoDot_frame {t u : TauD} (e : absRhoDot t = .ok u) :
    ∃ l, t.arr .rhoDot = some l ∧ t.arrSize ≤ l.length ∧
      u = t.setArr .rhoDot (some ((l.take t.arrSize).map Dbl.abs ++ l.drop t.arrSize)) := by
  unfold absRhoDot at e
  split at e
  · cases e
  rename_i l hl
  split at e
  · cases e; exact ⟨l, hl, by assumption, rfl⟩
  · cases e

theorem checkOccType_frame {L : Lib} {t u : TauD} (h : t.err = none)
    (e : checkOccType L t = .ok u) : OccFrame t u := by
  have failed : ∀ l, OccFrame t (t.fail .checkOccType l) := fun l =>
    ⟨rfl, fun _ => ⟨rfl, rfl⟩, by simp, fun _ _ => rfl, fun f l h => ⟨l, h, rfl⟩⟩
  rw [checkOccType, guarded_none _ h] at e
  split at e
  · cases e; exact failed _
  rename_i hv
  have hv' : t.arr .rhoDot ≠ none := by simpa using hv
  split at e
  · cases e; exact failed _
  rename_i hsz
  split at e
  · cases e; exact failed _
  rw [Res.bind_eq_ok] at e
  obtain ⟨l, -, e⟩ := e
  simp only at e
  split at e
  · cases e; exact failed _
  split at e
  · cases e; exact failed _
  split at e
  · cases e; exact failed _
  split at e
  · obtain ⟨v, hv, hl, rfl⟩ := absRhoDot_frame e
    refine ⟨rfl, fun c => absurd h c, fun _ => ⟨by omega, hv'⟩, ?_, ?_⟩
    · intro f hf
      have : f ≠ .rhoDot := fun hh => hf (by rw [hh]; decide)
      simp [Tau.setArr, this]
    · intro f m hm
      by_cases hf : f = .rhoDot
      · subst hf
        rw [hv] at hm; cases hm
        exact ⟨_, setArr_arr .., by simp; omega⟩
      · exact ⟨m, by simp [Tau.setArr, hf, hm], rfl⟩
  split at e
  · simp only [Res.bind_eq_ok] at e
    obtain ⟨t1, e1, t2, e2, e⟩ := e
    cases e
    obtain ⟨a, b, c⟩ := reverseAll_frame _ e1
    obtain ⟨v, hv, hl, rfl⟩ := absRhoDot_frame e2
    have hs1 : t1.arrSize = t.arrSize := by rw [a]
    refine ⟨?_, fun c => ?_, fun _ => ⟨by omega, hv'⟩, ?_, ?_⟩
    · rw [a]; rfl
    · exfalso; apply c; show t1.err = none; rw [a]; exact h
    · intro f hf
      have : f ≠ .rhoDot := fun hh => hf (by rw [hh]; decide)
      show (if f = .rhoDot then _ else t1.arr f) = _
      rw [if_neg this, b f hf]
    · intro f m hm
      obtain ⟨l', d1, d2⟩ := c f m hm
      by_cases hf : f = .rhoDot
      · subst hf
        rw [hv] at d1; cases d1
        refine ⟨(v.take t1.arrSize).map Dbl.abs ++ v.drop t1.arrSize,
          by simp [Tau.setArr], ?_⟩
        rw [← d2]
        simp; omega
      · exact ⟨l', by simp [Tau.setArr, hf, d1], d2⟩
  · cases e
    exact ⟨rfl, fun c => absurd h c, fun _ => ⟨by omega, hv'⟩, fun _ _ => rfl,
      fun f l h => ⟨l, h, rfl⟩⟩

/-- The object handed to the first diffraction correction. -/
abbrev withOut (E : Env) (t : TauD) : TauD :=
  t.setC .tOut (some ((List.range t.arrSize).map E.junk))

/-- The stages of a preparation without error. -/
theorem prepare_ok {N : Num Dbl Cpx} {L : Lib} {E : Env} {t u : TauD} (h : t.err = none)
    (e : prepare N L E t = .ok u) :
    u.err ≠ none ∨ ∃ t1 t2, checkKeywords L t = .ok t ∧
      checkOccType L t = .ok t1 ∧ t1.err = none ∧ getWindowWidth N L t1 = .ok t2 ∧
      t2.err = none ∧ checkDataRange N t2 = .ok t2 ∧ u = withOut E t2 ∧ CoreThere u := by
  simp only [prepare, Res.bind_eq_ok] at e
  obtain ⟨t0, e0, t1, e1, t2, e2, t3, e3, e⟩ := e
  have herr : ∀ {x : TauD}, x.err ≠ none → x = u → u.err ≠ none := fun h1 h2 => h2 ▸ h1
  rcases checkKeywords_cases L h with ⟨-, e0'⟩ | ⟨g, l, -, e0'⟩
  swap
  · rw [e0] at e0'; cases e0'
    refine .inl ?_
    have hx : (t.fail g.reporter l).err ≠ none := by simp
    rw [checkOccType, guarded_err _ hx] at e1; cases e1
    rw [getWindowWidth, guarded_err _ hx] at e2; cases e2
    rw [checkDataRange, guarded_err _ hx] at e3; cases e3
    rw [guarded_err _ hx] at e; cases e
    exact hx
  rw [e0] at e0'; cases e0'
  by_cases h1 : t1.err = none
  swap
  · refine .inl ?_
    rw [getWindowWidth, guarded_err _ h1] at e2; cases e2
    rw [checkDataRange, guarded_err _ h1] at e3; cases e3
    rw [guarded_err _ h1] at e; cases e
    exact h1
  by_cases h2 : t2.err = none
  swap
  · refine .inl ?_
    rw [checkDataRange, guarded_err _ h2] at e3; cases e3
    rw [guarded_err _ h2] at e; cases e
    exact h2
  rcases checkDataRange_cases N h2 e3 with ⟨l, rfl⟩ | ⟨rfl, -⟩
  · refine .inl ?_
    rw [guarded_err _ (by simp)] at e; cases e
    simp
  rw [guarded_none _ h2] at e
  rcases checkCoreData_cases (t := withOut E t3) h2 with ⟨hc, ec⟩ | ⟨-, l, ec⟩
  · rw [ec] at e; cases e
    exact .inr ⟨t1, t3, e0, e1, h1, e2, h2, e3, rfl, hc⟩
  · rw [ec] at e; cases e
    exact .inl (by simp)

/-- The object handed to the second diffraction correction. -/
abbrev narrowed (N : Num Dbl Cpx) (t : TauD) (nw : Nat) : TauD :=
  { (t.setC .tIn (t.carr .tOut)).setC .tOut (some (List.replicate t.arrSize N.czero)) with
    start := t.start + nw, nUsed := t.nUsed - 2 * nw }

/-- What the forward stage did when it returned without error. -/
theorem forwardStage_ok {N : Num Dbl Cpx} {L : Lib} {sem : Sem} (hs : IgnoresOut sem) {Z : FFT}
    {E : Env} (hE : E.Lawful) {t : TauD} {r : TauD × Bool}
    (e : forwardStage N L sem Z E t = .ok r) (hr : r.1.err = none) :
    t.err = none ∧ r.2 = false ∧ ∃ wl wrt nw t5,
      rdP (t.arr .w) t.start = .ok wl ∧ rdP (t.arr .w) (t.start + t.nUsed) = .ok wrt ∧
      (N.div (if wl.lt wrt then wrt else wl) (N.mul t.dx (N.lit 2))).toSize = .ok nw ∧
      2 * nw < t.nUsed ∧
      diffractionCorrection N L sem Z E (narrowed N t nw) = .ok t5 ∧ t5.err = none ∧
      r.1 = { t with
        arr := fun f => if f = .k then t5.arr .k else t.arr f
        carr := fun f => if f = .tFwd then t5.carr .tOut else t.carr f } := by
  simp only [forwardStage, Res.bind_eq_ok] at e
  obtain ⟨wl, e1, wrt, e2, nw, e3, e⟩ := e
  split at e
  · cases e; simp at hr
  rename_i hle
  rw [Res.bind_eq_ok] at e
  obtain ⟨t5, e5, e⟩ := e
  cases e
  have ht5 : t5.err = none := hr
  have e5' : diffractionCorrection N L sem Z E (narrowed N t nw) = .ok t5 := e5
  have ht : t.err = none := by
    by_contra hne
    rw [diffractionCorrection, guarded_err _ (show (narrowed N t nw).err ≠ none from hne)] at e5'
    cases e5'
    exact hne ht5
  refine ⟨ht, rfl, wl, wrt, nw, t5, e1, e2, e3, by simpa [Tau.setC] using hle, e5, ht5, ?_⟩
  obtain ⟨hF, -⟩ := dc_frame hs hE (show (narrowed N t nw).err = none from ht) e5'
  have hsame := hF.same
  cases t
  simp only [Tau.setC, Tau.setArr] at hsame ⊢
  rw [hsame]
  simp only [Tau.mk.injEq, true_and, and_true]
  refine ⟨?_, ?_, ?_⟩
  · funext f; by_cases hf : f = .k <;> simp only [hf, if_true, if_false]
  · funext f; cases f <;> simp
  · rw [ht5]; exact ht.symm

/-- The stages of a successful `Reconstruction`. -/
structure ReconRun (N : Num Dbl Cpx) (L : Lib) (sem : Sem) (Z : FFT) (E : Env)
    (t t1 t2 t4 u : TauD) : Prop where
  keywords : checkKeywords L t = .ok t
  occ : checkOccType L t = .ok t1
  occErr : t1.err = none
  gww : getWindowWidth N L t1 = .ok t2
  gwwErr : t2.err = none
  range : checkDataRange N t2 = .ok t2
  core : CoreThere (withOut E t2)
  dc : diffractionCorrection N L sem Z E { withOut E t2 with useFwd := false } = .ok t4
  dcErr : t4.err = none
  fin : if t2.useFwd then ∃ r, forwardStage N L sem Z E { t4 with useFwd := true } = .ok r ∧
      r.1.err = none ∧ r.2 = false ∧ tauFinish r.1 = .ok u
    else tauFinish t4 = .ok u

theorem reconstruction_ok {N : Num Dbl Cpx} {L : Lib} {sem : Sem} (hs : IgnoresOut sem) {Z : FFT}
    {E : Env} (hE : E.Lawful) {t u : TauD} (h : t.err = none)
    (e : reconstruction N L sem Z E t = .ok u) (hu : u.err = none) :
    ∃ t1 t2 t4, ReconRun N L sem Z E t t1 t2 t4 u := by
  rw [reconstruction, Res.bind_eq_ok] at e
  obtain ⟨t3, ep, e⟩ := e
  rcases prepare_ok h ep with hne | ⟨t1, t2, a1, a2, a3, a4, a5, a6, rfl, a8⟩
  · rw [guarded_err _ hne] at e; cases e; exact absurd hu hne
  rw [guarded_none _ (show (withOut E t2).err = none from a5), Res.bind_eq_ok] at e
  obtain ⟨t4, e4, e⟩ := e
  obtain ⟨hF, -⟩ := dc_frame hs hE (t := { withOut E t2 with useFwd := false }) a5 e4
  have hf4 : t4.useFwd = false := hF.useFwd
  have hf2 : (withOut E t2).useFwd = t2.useFwd := rfl
  by_cases h4 : t4.err = none
  · refine ⟨t1, t2, t4, a1, a2, a3, a4, a5, a6, a8, e4, h4, ?_⟩
    rw [hf2] at e
    cases hfw : t2.useFwd with
    | false =>
      rw [hfw] at e
      simp only [Bool.false_eq_true, if_false] at e ⊢
      have : ({ t4 with useFwd := false } : TauD) = t4 := by rw [← hf4]
      rwa [this] at e
    | true =>
      rw [hfw] at e
      simp only [if_true] at e ⊢
      rw [Res.bind_eq_ok] at e
      obtain ⟨r, er, e⟩ := e
      have hr : r.1.err = none := by
        by_contra hne
        split at e
        · cases e; exact hne hu
        · rw [tauFinish, guarded_err _ hne] at e; cases e; exact hne hu
      obtain ⟨-, h2, -⟩ := forwardStage_ok hs hE er hr
      refine ⟨r, er, hr, h2, ?_⟩
      rw [h2] at e
      simpa using e
  · exfalso
    rw [hf2] at e
    cases hfw : t2.useFwd with
    | false =>
      rw [hfw] at e
      simp only [Bool.false_eq_true, if_false] at e
      rw [tauFinish, guarded_err _ (show ({ t4 with useFwd := false } : TauD).err ≠ none from h4)] at e
      cases e; exact h4 hu
    | true =>
      rw [hfw] at e
      simp only [if_true] at e
      rw [Res.bind_eq_ok] at e
      obtain ⟨r, er, e⟩ := e
      have hr : r.1.err = none := by
        by_contra hne
        split at e
        · cases e; exact hne hu
        · rw [tauFinish, guarded_err _ hne] at e; cases e; exact hne hu
      exact h4 (forwardStage_ok hs hE er hr).1

end Verif
