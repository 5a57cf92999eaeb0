import Verif.Model.PyTauHeap
import Verif.Proofs.PyCsvHeap
import Verif.Props.C62
import Verif.Props.C118

/-!
# C119 `DiffractionCorrection` objects: the arrays of C get Python owners; what is never released
-/
namespace Verif

namespace Spec

/-- The object as it should be after the constructor took over the arrays `p`: each array has exactly one Python array, with
one reference, that will release exactly this block; a missing array is `None`. -/
structure DcBuilt (p : TauPtr) (st : PySt) (a : DcAttr → Option PyRef) (st' : PySt) : Prop where
  quiet : st'.exc = st.exc
  arrays : ∀ s b, p s = some b →
    ∃ i, a (.arr s) = some (.obj i) ∧ st'.objs i = some ⟨1, some b⟩ ∧ st'.mem.heap.blk b = some () ∧ st.objs i = none
  nones : ∀ s, p s = none → a (.arr s) = some .none
  apart : ∀ f g i, a f = some (.obj i) → a g = some (.obj i) → f = g
  dicts : ∀ f, f = .inputVars ∨ f = .inputKwds → ∃ i, a f = some (.obj i) ∧ st'.objs i = some ⟨2, none⟩ ∧ st.objs i = none
  outfiles : a .outfiles = none
  sound : SoundObjects st'

/-- The program keeps `extra f` further references to the value of attribute `f`. -/
structure DcHeld (a : DcAttr → Option PyRef) (extra : DcAttr → Nat) (st st' : PySt) : Prop where
  mem : st'.mem = st.mem
  objs : ∀ f i c, a f = some (.obj i) → st.objs i = some c → st'.objs i = some { c with refs := c.refs + extra f }

end Spec
open Spec

theorem dcArrays_all (s : Slot) : DcAttr.arr s ∈ dcArrays := by
  rcases s with s | s <;> cases s <;> decide

theorem dcArrays_arr : ∀ f ∈ dcArrays, ∃ s, f = .arr s := by
  intro f hf
  cases f with
  | arr s => exact ⟨s, rfl⟩
  | _ => exact absurd hf (by decide)

theorem incref_ok {st : PySt} {i : Nat} {c : PyCell} (h : st.objs i = some c) :
    st.incref i = .ok (st.put i (some ⟨c.refs + 1, c.base⟩)) := by
  simp only [PySt.incref, h]

/-- Two references more. -/
theorem dcHistory_ok {st : PySt} {i : Nat} {c : PyCell} (h : st.objs i = some c) :
    ∃ st', dcHistory (some i) st = .ok st' ∧ st'.mem = st.mem ∧ st'.exc = st.exc ∧ st'.next = st.next ∧ st'.calls = st.calls ∧
      st'.objs i = some ⟨c.refs + 2, c.base⟩ ∧ ∀ j, j ≠ i → st'.objs j = st.objs j := by
  have h1 : (st.put i (some ⟨c.refs + 1, c.base⟩)).objs i = some ⟨c.refs + 1, c.base⟩ := by simp [PySt.put]
  refine ⟨(st.put i (some ⟨c.refs + 1, c.base⟩)).put i (some ⟨c.refs + 1 + 1, c.base⟩), ?_, rfl, rfl, rfl, rfl, ?_, ?_⟩
  · simp only [dcHistory, incref_ok h, Res.ok_bind, incref_ok h1]
  · simp [PySt.put]
  · intro j hj
    simp [PySt.put, hj]

theorem dcSetDict_ok {P : Nat → Bool} {f : DcAttr} {a : DcAttr → Option PyRef} {st : PySt} (hP : P st.calls = true) (ha : a f = none) :
    ∃ st', dcSetDict P f a st = .ok (setAttr a f (some (.obj st.next)), st') ∧ st'.mem = st.mem ∧ st'.exc = st.exc ∧
      st'.next = st.next + 1 ∧ st'.calls = st.calls + 1 ∧ st'.objs st.next = some ⟨2, none⟩ ∧
      ∀ j, j ≠ st.next → st'.objs j = st.objs j := by
  refine ⟨{ ({ st with calls := st.calls + 1 } : PySt).put st.next (some ⟨2, none⟩) with next := st.next + 1 }, ?_, rfl, rfl, rfl,
    rfl, ?_, ?_⟩
  · simp [dcSetDict, hP, PySt.fresh, ha, PySt.decref]
  · simp [PySt.put]
  · intro j hj
    simp [PySt.put, hj]

/-- **C119**, making an object from a tau object without error: its attributes own the arrays, one to one; the two
structures of C are released, and nothing else.  `T` is what was lost before (C64), `base` belongs to the rest of the
program.  Partial: needs that all Python objects can be allocated, and the attribute `history`. -/
theorem C119_create_partial (P : Nat → Bool) {base : Nat → Prop} {T : List Nat} {st : PySt} {tau dlp hist : Nat} {c : PyCell}
    {p : TauPtr} (hl : LiveIs base (tau :: dlp :: T) st.mem p) (ho : SoundObjects st) (hP : PythonAllocates P st)
    (hh : st.objs hist = some c) :
    ∃ a st', dcConstruct P ⟨some tau, dlp, p, false⟩ (some hist) st = .ok (some a, st') ∧ DcBuilt p st a st' ∧
      LiveIs base T st'.mem p ∧ st'.objs hist = some ⟨c.refs + 2, c.base⟩ ∧
      ∀ i, i ≠ hist → st.objs i ≠ none → st'.objs i = st.objs i := by
  obtain ⟨a1, st1, e1, Q⟩ := createArrays_ok (P := P) (ptr := dcPtr p) dcArrays (fun _ => none) st (by decide) hP ho
    (fun _ _ _ => .inl rfl)
  have hlt : ∀ i, st.objs i ≠ none → i < st.next := fun i h => by
    by_contra hc
    exact h (ho i (by omega))
  have hhl := hlt hist (by rw [hh]; simp)
  obtain ⟨m1, f1, l1, -⟩ := Spec.LiveIs.free (o := some tau) hl
  obtain ⟨m2, f2, l2, -⟩ := Spec.LiveIs.free (o := some dlp) l1
  obtain ⟨st2, e2, b1, b2, b3, b4, b5, b6⟩ := dcHistory_ok (st := { st1 with mem := m2 }) (i := hist) (c := c)
    (by show st1.objs hist = _; rw [Q.old hist hhl, hh])
  have hn1 := Q.next
  have hc1 := Q.calls
  have b3' : st2.next = st1.next := b3
  have b4' : st2.calls = st1.calls := b4
  have hv : a1 .inputVars = none := Q.other _ (by decide)
  have hk : a1 .inputKwds = none := Q.other _ (by decide)
  obtain ⟨st3, e3, d1, d2, d3, d4, d5, d6⟩ := dcSetDict_ok (P := P) (f := .inputVars) (a := a1) (st := st2)
    (hP _ (by omega)) hv
  obtain ⟨st4, e4, g1, g2, g3, g4, g5, g6⟩ := dcSetDict_ok (P := P) (f := .inputKwds)
    (a := setAttr a1 .inputVars (some (.obj st2.next))) (st := st3) (hP _ (by omega)) (by simpa [setAttr] using hk)
  have hobj : ∀ i, i < st1.next → i ≠ hist → st4.objs i = st1.objs i := by
    intro i hi hne
    rw [g6 i (by omega), d6 i (by omega), b6 i hne]
  have hmem : st4.mem = m2 := by rw [g1, d1, b1]
  have hinit : dcInit P ⟨some tau, dlp, p, false⟩ (some hist) (fun _ => none) st = .ok (1,
      setAttr (setAttr (setAttr a1 .inputVars (some (.obj st2.next))) .inputKwds (some (.obj st3.next))) .outfiles none, st4) := by
    unfold dcInit
    simp only [Bool.false_eq_true, if_false, e1, Res.ok_bind, Q.mem, f1, f2, e2, e3, e4]
  have hat : ∀ s, setAttr (setAttr (setAttr a1 .inputVars (some (.obj st2.next))) .inputKwds (some (.obj st3.next))) .outfiles
      none (.arr s) = a1 (.arr s) := fun s => by simp [setAttr]
  have hvv : setAttr (setAttr (setAttr a1 .inputVars (some (.obj st2.next))) .inputKwds (some (.obj st3.next))) .outfiles
      none .inputVars = some (.obj st2.next) := by simp [setAttr]
  have hkk : setAttr (setAttr (setAttr a1 .inputVars (some (.obj st2.next))) .inputKwds (some (.obj st3.next))) .outfiles
      none .inputKwds = some (.obj st3.next) := by simp [setAttr]
  have hoo : setAttr (setAttr (setAttr a1 .inputVars (some (.obj st2.next))) .inputKwds (some (.obj st3.next))) .outfiles
      none .outfiles = none := by simp [setAttr]
  have hfr : ∀ s i, a1 (.arr s) = some (.obj i) → st.next ≤ i ∧ i < st1.next := by
    intro s i hi
    cases h0 : p s with
    | none => rw [Q.nones _ (dcArrays_all s) h0] at hi; cases hi
    | some b =>
      obtain ⟨j, j1, j2, j3, -⟩ := Q.arrs _ (dcArrays_all s) b h0
      rw [j3] at hi; cases hi
      exact ⟨j1, j2⟩
  refine ⟨_, st4, ?_, ⟨?_, ?_, ?_, ?_, ?_, hoo, ?_⟩, ?_, ?_, ?_⟩
  · unfold dcConstruct
    rw [hinit]; rfl
  · rw [g2, d2, b2]; exact Q.exc
  · intro s b hb
    obtain ⟨i, i1, i2, i3, i4⟩ := Q.arrs _ (dcArrays_all s) b hb
    refine ⟨i, by rw [hat, i3], by rw [hobj i i2 (by omega), i4], ?_, ho i i1⟩
    have := (l2.live b).2 (.inr (.inr ⟨s, hb⟩))
    rw [hmem]
    obtain ⟨u, hu⟩ := Option.ne_none_iff_exists'.1 this
    exact hu
  · intro s hs
    rw [hat, Q.nones _ (dcArrays_all s) hs]
  · intro f g i hf hg
    cases f with
    | arr s =>
      rw [hat] at hf
      have k1 := hfr s i hf
      cases g with
      | arr s' => rw [hat] at hg; exact Q.inj _ (dcArrays_all s) _ (dcArrays_all s') i hf hg
      | inputVars => rw [hvv] at hg; cases hg; omega
      | inputKwds => rw [hkk] at hg; cases hg; omega
      | outfiles => rw [hoo] at hg; cases hg
    | inputVars =>
      rw [hvv] at hf
      cases hf
      cases g with
      | arr s' => rw [hat] at hg; have := hfr s' _ hg; omega
      | inputVars => rfl
      | inputKwds => rw [hkk] at hg; simp only [Option.some.injEq, PyRef.obj.injEq] at hg; omega
      | outfiles => rw [hoo] at hg; cases hg
    | inputKwds =>
      rw [hkk] at hf
      cases hf
      cases g with
      | arr s' => rw [hat] at hg; have := hfr s' _ hg; omega
      | inputVars => rw [hvv] at hg; simp only [Option.some.injEq, PyRef.obj.injEq] at hg; omega
      | inputKwds => rfl
      | outfiles => rw [hoo] at hg; cases hg
    | outfiles => rw [hoo] at hf; cases hf
  · rintro f (rfl | rfl)
    · exact ⟨_, hvv, by rw [g6 _ (by omega), d5], ho _ (by omega)⟩
    · exact ⟨_, hkk, g5, ho _ (by omega)⟩
  · intro i hi
    rw [g6 i (by omega), d6 i (by omega), b6 i (by omega)]
    exact Q.fresh i (by omega)
  · rw [hmem]; exact l2
  · rw [g6 _ (by omega), d6 _ (by omega), b5]
  · intro i hne hi
    have := hlt i hi
    rw [hobj i (by omega) hne, Q.old i this]

/-- The attribute of the wavenumber, for which the destructor has no line. -/
def dcK : DcAttr := .arr (.d .k)

theorem dcFrees_perm : (dcArrays ++ ([.outfiles, .inputVars, .inputKwds] : List DcAttr)).Perm (dcK :: dcFrees) := by decide

theorem filterMap_nodup {α : Type} {p : α → Option Nat} : ∀ (fs : List α), fs.Nodup →
    (∀ f ∈ fs, ∀ g ∈ fs, ∀ b, p f = some b → p g = some b → f = g) → (fs.filterMap p).Nodup
  | [], _, _ => by simp
  | f :: fs, hn, h => by
    obtain ⟨n1, n2⟩ := List.nodup_cons.1 hn
    have ih := filterMap_nodup fs n2 fun g hg k hk => h g (List.mem_cons_of_mem _ hg) k (List.mem_cons_of_mem _ hk)
    rw [filterMap_cons_any]
    cases hf : p f with
    | none => exact ih
    | some b =>
      refine List.nodup_cons.2 ⟨fun hm => ?_, ih⟩
      obtain ⟨g, hg, hgb⟩ := List.mem_filterMap.1 hm
      have := h f List.mem_cons_self g (List.mem_cons_of_mem _ hg) b hf hgb
      exact n1 (this ▸ hg)

theorem live_holds {base : Nat → Prop} {T : List Nat} {m : Mem} {p : TauPtr} (h : LiveIs base T m p) :
    ∃ h0 : Heap Unit, Holds h0 m.heap (dcArrays.filterMap (dcPtr p)) ∧ ∀ q, h0.blk q ≠ none ↔ base q ∨ q ∈ T := by
  have hm : ∀ q, q ∈ dcArrays.filterMap (dcPtr p) ↔ ∃ s, p s = some q := by
    intro q
    rw [List.mem_filterMap]
    constructor
    · rintro ⟨f, hf, e⟩
      obtain ⟨s, rfl⟩ := dcArrays_arr f hf
      exact ⟨s, e⟩
    · rintro ⟨s, e⟩
      exact ⟨.arr s, dcArrays_all s, e⟩
  refine ⟨⟨fun q => if q ∈ dcArrays.filterMap (dcPtr p) then none else m.heap.blk q, m.heap.next⟩, ⟨?_, ?_, ?_, ?_, h.fresh⟩, ?_⟩
  · refine filterMap_nodup _ (by decide) ?_
    intro f hf g hg b h1 h2
    obtain ⟨s, rfl⟩ := dcArrays_arr f hf
    obtain ⟨s', rfl⟩ := dcArrays_arr g hg
    rw [h.own s s' b h1 h2]
  · intro q hq
    have := (h.live q).2 (.inr (.inr ((hm q).1 hq)))
    obtain ⟨u, hu⟩ := Option.ne_none_iff_exists'.1 this
    exact hu
  · intro q hq
    simp only [if_neg hq]
  · intro q hq
    simp only [if_pos hq]
  · intro q
    by_cases hq : q ∈ dcArrays.filterMap (dcPtr p)
    · simp only [if_pos hq, ne_eq, not_true_eq_false, false_iff, not_or]
      obtain ⟨s, hs⟩ := (hm q).1 hq
      exact h.apart s q hs
    · simp only [if_neg hq, h.live q]
      rw [hm] at hq
      tauto

theorem dc_dealloc_ok {base : Nat → Prop} {T : List Nat} {p : TauPtr} {st0 st st2 : PySt} {a : DcAttr → Option PyRef}
    {extra : DcAttr → Nat} (hl : LiveIs base T st.mem p) (B : DcBuilt p st0 a st) (hheld : DcHeld a extra st st2) :
    ∃ st3, dcDealloc a st2 = .ok st3 ∧
      (∀ q, st3.mem.heap.blk q ≠ none ↔ base q ∨ q ∈ T ∨ p (.d .k) = some q ∨ ∃ s, 0 < extra (.arr s) ∧ p s = some q) ∧
      (∀ s i, s ≠ .d .k → a (.arr s) = some (.obj i) →
        st3.objs i = if extra (.arr s) = 0 then none else some ⟨extra (.arr s), p s⟩) ∧
      (∀ i, a (.arr (.d .k)) = some (.obj i) → st3.objs i = some ⟨1 + extra (.arr (.d .k)), p (.d .k)⟩) ∧
      (∀ f i, f = .inputVars ∨ f = .inputKwds → a f = some (.obj i) → st3.objs i = some ⟨1 + extra f, none⟩) ∧
      (∀ i, (∀ f, a f ≠ some (.obj i)) → st3.objs i = st2.objs i) := by
  obtain ⟨h0, H, hbase⟩ := live_holds hl
  have hobj : ∀ s b, p s = some b → ∃ i, a (.arr s) = some (.obj i) ∧ st2.objs i = some ⟨1 + extra (.arr s), some b⟩ := by
    intro s b hb
    obtain ⟨i, i1, i2, -⟩ := B.arrays s b hb
    exact ⟨i, i1, hheld.objs _ i _ i1 i2⟩
  have hdict : ∀ f, f = .inputVars ∨ f = .inputKwds → ∃ i, a f = some (.obj i) ∧ st2.objs i = some ⟨2 + extra f, none⟩ := by
    intro f hf
    obtain ⟨i, i1, i2, -⟩ := B.dicts f hf
    exact ⟨i, i1, hheld.objs _ i _ i1 i2⟩
  let kept : DcAttr → Nat := fun f => if f = dcK then 1 else extra f
  have hdue : ∀ f ∈ dcFrees, dueBlock a st2 f = if kept f = 0 then dcPtr p f else none := by
    intro f hf
    have hk : f ≠ dcK := fun e => absurd (e ▸ hf) (by decide)
    have hkf : kept f = extra f := if_neg hk
    rw [hkf]
    cases f with
    | arr s =>
      cases hb : p s with
      | none => simp [dueBlock, B.nones s hb, dcPtr, hb]
      | some b =>
        obtain ⟨i, i1, i2⟩ := hobj s b hb
        by_cases h0 : extra (.arr s) = 0 <;> simp [dueBlock, i1, i2, h0, dcPtr, hb]
    | inputVars =>
      obtain ⟨i, i1, i2⟩ := hdict .inputVars (.inl rfl)
      simp [dueBlock, i1, i2, dcPtr]
    | inputKwds =>
      obtain ⟨i, i1, i2⟩ := hdict .inputKwds (.inr rfl)
      simp [dueBlock, i1, i2, dcPtr]
    | outfiles => simp [dueBlock, B.outfiles, dcPtr]
  have hfr : (dcArrays.filterMap fun f => if kept f = 0 then dcPtr p f else none).Perm
      (dcFrees.filterMap (dueBlock a st2)) := by
    rw [filterMap_same hdue]
    have := dcFrees_perm.filterMap (fun f => if kept f = 0 then dcPtr p f else none)
    rw [List.filterMap_append, filterMap_cons_any _ dcK] at this
    have e1 : ([.outfiles, .inputVars, .inputKwds] : List DcAttr).filterMap (fun f => if kept f = 0 then dcPtr p f else none) = [] := by
      simp [dcPtr]
    have e2 : kept dcK = 1 := if_pos rfl
    rw [e1, e2] at this
    simpa using this
  have H2 : Holds h0 st2.mem.heap (dcFrees.filterMap (dueBlock a st2) ++
      dcArrays.filterMap fun f => if kept f = 0 then none else dcPtr p f) := by
    rw [hheld.mem]
    exact H.perm ((split_perm kept (dcPtr p) dcArrays).trans (hfr.append_right _))
  have hget : ∀ f ∈ dcFrees, ∀ i, a f = some (.obj i) → st2.objs i ≠ none := by
    intro f hf i hfi
    cases f with
    | arr s =>
      cases hb : p s with
      | none => rw [B.nones s hb] at hfi; cases hfi
      | some b =>
        obtain ⟨k, k1, k2⟩ := hobj s b hb
        rw [k1] at hfi; cases hfi; rw [k2]; simp
    | inputVars =>
      obtain ⟨k, k1, k2⟩ := hdict .inputVars (.inl rfl)
      rw [k1] at hfi; cases hfi; rw [k2]; simp
    | inputKwds =>
      obtain ⟨k, k1, k2⟩ := hdict .inputKwds (.inr rfl)
      rw [k1] at hfi; cases hfi; rw [k2]; simp
    | outfiles => rw [B.outfiles] at hfi; cases hfi
  obtain ⟨st3, e, H', x, p1, p2⟩ := decrefs_ok (a := a) dcFrees st2 (by decide) hget
    (fun f _ g _ => B.apart f g) H2
  have hall : ∀ s, s ≠ .d .k → DcAttr.arr s ∈ dcFrees := by
    intro s hs
    rcases s with s | s <;> cases s <;> first | decide | exact absurd rfl hs
  refine ⟨st3, e, ?_, ?_, ?_, ?_, ?_⟩
  · intro q
    have hm : (q ∈ dcArrays.filterMap fun f => if kept f = 0 then none else dcPtr p f) ↔
        (p (.d .k) = some q ∨ ∃ s, 0 < extra (.arr s) ∧ p s = some q) := by
      rw [List.mem_filterMap]
      constructor
      · rintro ⟨f, hf, hq⟩
        obtain ⟨s, rfl⟩ := dcArrays_arr f hf
        by_cases hs : s = .d .k
        · subst hs
          rw [if_neg (by show kept dcK ≠ 0; simp [kept])] at hq
          exact .inl hq
        · have : kept (.arr s) = extra (.arr s) := if_neg (by unfold dcK; simpa using hs)
          rw [this] at hq
          by_cases h0 : extra (.arr s) = 0
          · rw [if_pos h0] at hq; cases hq
          · rw [if_neg h0] at hq
            exact .inr ⟨s, by omega, hq⟩
      · rintro (hq | ⟨s, h0, hq⟩)
        · exact ⟨dcK, by decide, by rw [if_neg (by simp [kept])]; exact hq⟩
        · refine ⟨.arr s, dcArrays_all s, ?_⟩
          rw [if_neg (by simp only [kept]; split <;> omega)]
          exact hq
    by_cases hq : q ∈ dcArrays.filterMap fun f => if kept f = 0 then none else dcPtr p f
    · have h1 := H'.live q hq
      have h2 := hm.1 hq
      rw [h1]
      simp only [ne_eq, reduceCtorEq, not_false_eq_true, true_iff]
      exact .inr (.inr h2)
    · rw [H'.rest q hq, hbase]
      have hq' := fun h => hq (hm.2 h)
      constructor
      · rintro (h | h)
        · exact .inl h
        · exact .inr (.inl h)
      · rintro (h | h | h)
        · exact .inl h
        · exact .inr h
        · exact absurd h hq'
  · intro s i hs hi
    cases hb : p s with
    | none => rw [B.nones s hb] at hi; cases hi
    | some b =>
      obtain ⟨k, k1, k2⟩ := hobj s b hb
      rw [k1] at hi; cases hi
      rw [p2 _ (hall s hs) _ k1, k2]
      by_cases h0 : extra (.arr s) = 0
      · simp [released, h0]
      · rw [if_neg h0]
        simp only [Option.bind_some, released]
        rw [if_neg (by omega)]
        simp
  · intro i hi
    cases hb : p (.d .k) with
    | none => rw [B.nones _ hb] at hi; cases hi
    | some b =>
      obtain ⟨k, k1, k2⟩ := hobj _ b hb
      rw [k1] at hi; cases hi
      rw [p1 i fun f hf hfk => by
        have := B.apart f (.arr (.d .k)) i hfk k1
        subst this
        exact absurd hf (by decide), k2]
  · intro f i hf hi
    obtain ⟨k, k1, k2⟩ := hdict f hf
    rw [k1] at hi; cases hi
    have hin : f ∈ dcFrees := by rcases hf with rfl | rfl <;> decide
    rw [p2 f hin _ k1, k2]
    simp only [Option.bind_some, released]
    rw [if_neg (by omega), show 2 + extra f - 1 = 1 + extra f by omega]
  · intro i hi
    exact p1 i fun f _ => hi f

/-- **C119**, the end of an object, with any number of further references to its arrays: the arrays without such a reference
are released with their memory, the others stay with as many references as are held.  Partial: the array of `k_vals` always
stays, and the two dictionaries keep one reference too many (`C119_k_false`, `C119_dicts_false`). -/
theorem C119_life_partial (P : Nat → Bool) {base : Nat → Prop} {T : List Nat} {st : PySt} {tau dlp hist : Nat} {c : PyCell}
    {p : TauPtr} (hl : LiveIs base (tau :: dlp :: T) st.mem p) (ho : SoundObjects st) (hP : PythonAllocates P st)
    (hh : st.objs hist = some c) :
    ∃ a st', dcConstruct P ⟨some tau, dlp, p, false⟩ (some hist) st = .ok (some a, st') ∧
      ∀ (extra : DcAttr → Nat) (st2 : PySt), DcHeld a extra st' st2 → ∃ st3, dcDealloc a st2 = .ok st3 ∧
        (∀ q, st3.mem.heap.blk q ≠ none ↔ base q ∨ q ∈ T ∨ p (.d .k) = some q ∨ ∃ s, 0 < extra (.arr s) ∧ p s = some q) ∧
        (∀ s i, s ≠ .d .k → a (.arr s) = some (.obj i) →
          st3.objs i = if extra (.arr s) = 0 then none else some ⟨extra (.arr s), p s⟩) ∧
        (∀ i, (∀ f, a f ≠ some (.obj i)) → st3.objs i = st2.objs i) := by
  obtain ⟨a, st', e, B, l, -⟩ := C119_create_partial P hl ho hP hh
  refine ⟨a, st', e, fun extra st2 hheld => ?_⟩
  obtain ⟨st3, e3, k1, k2, -, -, k5⟩ := dc_dealloc_ok l B hheld
  exact ⟨st3, e3, k1, k2, k5⟩

/-- The negation of **C119** for `k_vals`: when nobody else holds a reference, the destructor leaves the array of the
wavenumbers with one reference, and its memory allocated. -/
theorem C119_k_false (P : Nat → Bool) {base : Nat → Prop} {T : List Nat} {st : PySt} {tau dlp hist b : Nat} {c : PyCell}
    {p : TauPtr} (hl : LiveIs base (tau :: dlp :: T) st.mem p) (ho : SoundObjects st) (hP : PythonAllocates P st)
    (hh : st.objs hist = some c) (hk : p (.d .k) = some b) :
    ∃ a st' st3 i, dcConstruct P ⟨some tau, dlp, p, false⟩ (some hist) st = .ok (some a, st') ∧ dcDealloc a st' = .ok st3 ∧
      a (.arr (.d .k)) = some (.obj i) ∧ st3.objs i = some ⟨1, some b⟩ ∧ st3.mem.heap.blk b = some () ∧
      ¬ base b ∧ st.objs i = none := by
  obtain ⟨a, st', e, B, l, -⟩ := C119_create_partial P hl ho hP hh
  obtain ⟨st3, e3, k1, -, k3, -⟩ := dc_dealloc_ok (extra := fun _ => 0) l B ⟨rfl, fun f i c _ h => h⟩
  obtain ⟨i, i1, -, -, i4⟩ := B.arrays _ b hk
  refine ⟨a, st', st3, i, e, e3, i1, ?_, ?_, (hl.apart _ _ hk).1, i4⟩
  · rw [k3 i i1, hk]
  · obtain ⟨u, hu⟩ := Option.ne_none_iff_exists'.1 ((k1 b).2 (.inr (.inr (.inl hk))))
    exact hu

/-- The negation of **C119** for the dictionaries: after the end of the object both still have one reference, and the history
of the DLP object has two more than before. -/
theorem C119_dicts_false (P : Nat → Bool) {base : Nat → Prop} {T : List Nat} {st : PySt} {tau dlp hist : Nat} {c : PyCell}
    {p : TauPtr} (hl : LiveIs base (tau :: dlp :: T) st.mem p) (ho : SoundObjects st) (hP : PythonAllocates P st)
    (hh : st.objs hist = some c) :
    ∃ a st' st3, dcConstruct P ⟨some tau, dlp, p, false⟩ (some hist) st = .ok (some a, st') ∧ dcDealloc a st' = .ok st3 ∧
      (∀ f, f = .inputVars ∨ f = .inputKwds → ∃ i, a f = some (.obj i) ∧ st3.objs i = some ⟨1, none⟩ ∧ st.objs i = none) ∧
      st3.objs hist = some ⟨c.refs + 2, c.base⟩ := by
  obtain ⟨a, st', e, B, l, h1, -⟩ := C119_create_partial P hl ho hP hh
  obtain ⟨st3, e3, -, -, -, k4, k5⟩ := dc_dealloc_ok (extra := fun _ => 0) l B ⟨rfl, fun f i c _ h => h⟩
  refine ⟨a, st', st3, e, e3, fun f hf => ?_, ?_⟩
  · obtain ⟨i, i1, -, i3⟩ := B.dicts f hf
    exact ⟨i, i1, k4 f i hf i1, i3⟩
  · rw [k5 hist fun f hf => ?_, h1]
    cases f with
    | arr s =>
      cases hb : p s with
      | none => rw [B.nones s hb] at hf; cases hf
      | some b =>
        obtain ⟨i, i1, -, -, i4⟩ := B.arrays s b hb
        rw [i1] at hf; cases hf; rw [hh] at i4; cases i4
    | inputVars =>
      obtain ⟨i, i1, -, i4⟩ := B.dicts .inputVars (.inl rfl)
      rw [i1] at hf; cases hf; rw [hh] at i4; cases i4
    | inputKwds =>
      obtain ⟨i, i1, -, i4⟩ := B.dicts .inputKwds (.inr rfl)
      rw [i1] at hf; cases hf; rw [hh] at i4; cases i4
    | outfiles => rw [B.outfiles] at hf; cases hf

/-- **C119**, failure: with an error in the tau object every array and the tau object itself are released, an exception is
set, and no object is made.  The structure of the DLP object stays allocated, for ever. -/
theorem C119_fail_false (P : Nat → Bool) {base : Nat → Prop} {T : List Nat} {st : PySt} {tau dlp : Nat} {hist : Option Nat}
    {p : TauPtr} (hl : LiveIs base (tau :: dlp :: T) st.mem p) :
    ∃ st', dcConstruct P ⟨some tau, dlp, p, true⟩ hist st = .ok (none, st') ∧ st'.exc = true ∧ st'.objs = st.objs ∧
      LiveIs base (dlp :: T) st'.mem (fun _ => none) := by
  obtain ⟨m, e, l⟩ := C64_destroy hl
  obtain ⟨m1, f1, l1, -⟩ := Spec.LiveIs.free (o := some tau) l
  refine ⟨{ st with
    mem := m1
    exc := true }, ?_, rfl, rfl, l1⟩
  simp only [dcConstruct, dcInit, if_true, e, Res.ok_bind, f1]
  rfl

/-- **C119**, failure to allocate the tau object: the same leak. -/
theorem C119_null_false (P : Nat → Bool) {st : PySt} {dlp : Nat} {hist : Option Nat} {p : TauPtr}
    {err : Bool} : dcConstruct P ⟨none, dlp, p, err⟩ hist st = .ok (none, { st with exc := true }) := rfl

/-- The negation of **C119** for a DLP object without the attribute `history`: the finished object is lost to undefined
behaviour (`Py_INCREF` of a null pointer). -/
theorem C119_history_false (P : Nat → Bool) {base : Nat → Prop} {T : List Nat} {st : PySt} {tau dlp : Nat}
    {p : TauPtr} (hl : LiveIs base (tau :: dlp :: T) st.mem p) (ho : SoundObjects st) (hP : PythonAllocates P st) :
    dcConstruct P ⟨some tau, dlp, p, false⟩ none st = .ub .nullDeref := by
  obtain ⟨a1, st1, e1, Q⟩ := createArrays_ok (P := P) (ptr := dcPtr p) dcArrays (fun _ => none) st (by decide) hP ho
    (fun _ _ _ => .inl rfl)
  obtain ⟨m1, f1, l1, -⟩ := Spec.LiveIs.free (o := some tau) hl
  obtain ⟨m2, f2, l2, -⟩ := Spec.LiveIs.free (o := some dlp) l1
  unfold dcConstruct dcInit
  simp only [Bool.false_eq_true, if_false, e1, Res.ok_bind, Q.mem, f1, f2, dcHistory]
  rfl

/-! ### The arrays of the DLP object -/

theorem borrow_ok (ids : DFld → Nat) : ∀ (fs : List DFld) (st : PySt), (∀ f ∈ fs, st.objs (ids f) ≠ none) →
    ∃ st', borrowArrays ids fs st = .ok st' ∧ st'.mem = st.mem ∧
      ∀ i, st'.objs i = (st.objs i).map fun c => ⟨c.refs + 2 * fs.countP (fun f => decide (ids f = i)), c.base⟩
  | [], st, _ => ⟨st, rfl, rfl, fun i => by simp⟩
  | f :: fs, st, h => by
    obtain ⟨c, hc⟩ := Option.ne_none_iff_exists'.1 (h f List.mem_cons_self)
    have h1 := incref_ok hc
    have hc1 : (st.put (ids f) (some ⟨c.refs + 1, c.base⟩)).objs (ids f) = some ⟨c.refs + 1, c.base⟩ := by simp [PySt.put]
    have h2 := incref_ok hc1
    obtain ⟨st', e, m, k⟩ := borrow_ok ids fs ((st.put (ids f) (some ⟨c.refs + 1, c.base⟩)).put (ids f) (some ⟨c.refs + 1 + 1, c.base⟩))
      (fun g hg => by
        by_cases hgf : ids g = ids f
        · simp [PySt.put, hgf]
        · simpa [PySt.put, hgf] using h g (List.mem_cons_of_mem _ hg))
    refine ⟨st', ?_, m, fun i => ?_⟩
    · simp only [borrowArrays, h1, Res.ok_bind, h2]
      exact e
    · rw [k i, List.countP_cons]
      by_cases hi : i = ids f
      · subst hi
        simp only [PySt.put, if_true, hc, Option.map_some, decide_true]
        congr 2
        omega
      · have : ¬ ids f = i := fun e => hi e.symm
        simp [PySt.put, hi, this]

/-- The negation of **C119** for the input: every array of the DLP object gets two references that nobody releases
(18 arrays that are 18 objects), so that its memory stays allocated when its owner lets it go. -/
theorem C119_inputs_false (ids : DFld → Nat) (hinj : ∀ f g, ids f = ids g → f = g) {st : PySt} {f : DFld} {b n : Nat}
    (hf : f ∈ .rho :: extractOrder) (hlive : ∀ f ∈ .rho :: extractOrder, st.objs (ids f) ≠ none)
    (hobj : st.objs (ids f) = some ⟨n, some b⟩) (hn : 1 ≤ n) (hb : st.mem.heap.blk b = some ()) :
    ∃ st', borrowArrays ids (.rho :: extractOrder) st = .ok st' ∧ st'.objs (ids f) = some ⟨n + 2, some b⟩ ∧
      ∃ st'', st'.decref (some (.obj (ids f))) = .ok st'' ∧ st''.mem.heap.blk b = some () ∧ st''.objs (ids f) ≠ none := by
  obtain ⟨st', e, m, k⟩ := borrow_ok ids (.rho :: extractOrder) st hlive
  have hcount : (.rho :: extractOrder).countP (fun g => decide (ids g = ids f)) = 1 := by
    have : ∀ g, decide (ids g = ids f) = decide (g = f) := fun g => by
      by_cases h : g = f
      · simp [h]
      · have : ids g ≠ ids f := fun e => h (hinj _ _ e)
        simp [h, this]
    simp only [this]
    revert hf
    cases f <;> decide
  have h1 : st'.objs (ids f) = some ⟨n + 2, some b⟩ := by
    rw [k, hobj, hcount]
    rfl
  refine ⟨st', e, h1, st'.put (ids f) (some ⟨n + 2 - 1, some b⟩), ?_, ?_, ?_⟩
  · simp only [PySt.decref, h1]
    rw [if_neg (by omega)]
  · show st'.mem.heap.blk b = _
    rw [m, hb]
  · simp [PySt.put]

/-- **C119**, from the creation of the tau object on (C64): whenever `Reconstruction` comes back with an object that owns its
arrays, the attributes take over exactly these. -/
theorem C119_reconstruction_partial (P : Nat → Bool) (A : Nat → Bool) (z : ZeroRealloc) (R : ReconPlan) {base : Nat → Prop}
    {st : PySt} {tau dlp hist : Nat} {c : PyCell} {m m' : Mem} {p p' : TauPtr} (hl : LiveIs base [tau, dlp] m p)
    (hz1 : NoZero z R.inv) (hz2 : NoZero z R.fwdDrv) (hu : R.gww.used ≠ 0) (hp : HasAll p createdSlots)
    (he : reconMem A z R m p = .ok (m', p')) (hm : st.mem = m') (ho : SoundObjects st) (hP : PythonAllocates P st)
    (hh : st.objs hist = some c) :
    ∃ lost a st', dcConstruct P ⟨some tau, dlp, p', false⟩ (some hist) st = .ok (some a, st') ∧ DcBuilt p' st a st' ∧
      LiveIs base lost st'.mem p' := by
  obtain ⟨lost, l, -⟩ := C64_recon_partial hl A z R hz1 hz2 hu hp he
  have l' : LiveIs base (tau :: dlp :: lost) st.mem p' := by
    rw [hm]
    exact l.perm List.perm_append_comm
  obtain ⟨a, st', e, B, l2, -⟩ := C119_create_partial P l' ho hP hh
  exact ⟨lost, a, st', e, B, l2⟩

/-! ### Examples -/

/-- A tau object at address 0 with two arrays (wavenumber at 2, radius at 3), a DLP object at address 1, and the dictionary
of its history. -/
def dcExPtr : TauPtr := fun s => if s = .d .k then some 2 else if s = .d .rho then some 3 else none

/-- The state of the example. -/
def dcExSt : PySt :=
  ⟨⟨⟨fun q => if q < 4 then some () else none, 4⟩, 7⟩, fun i => if i = 0 then some ⟨1, none⟩ else none, 1, 0, false⟩

theorem dcEx_live : LiveIs (fun _ => False) [0, 1] dcExSt.mem dcExPtr where
  fresh q hq := by
    have : 4 ≤ q := hq
    simp [dcExSt]; omega
  live q := by
    constructor
    · intro h
      have hq : q < 4 := by
        by_contra hc
        exact h (by simp [dcExSt]; omega)
      have : q = 0 ∨ q = 1 ∨ q = 2 ∨ q = 3 := by omega
      rcases this with rfl | rfl | rfl | rfl
      · simp
      · simp
      · exact .inr (.inr ⟨.d .k, by decide⟩)
      · exact .inr (.inr ⟨.d .rho, by decide⟩)
    · rintro (h | h | ⟨s, hs⟩)
      · exact h.elim
      · have : q = 0 ∨ q = 1 := by simpa using h
        have hq : q < 4 := by omega
        simp [dcExSt, hq]
      · have hq : q < 4 := by
          unfold dcExPtr at hs
          split at hs
          · cases hs; omega
          · split at hs
            · cases hs; omega
            · cases hs
        simp [dcExSt, hq]
  nodup := by decide
  tmpBase := by simp
  own s s' q h h' := by
    unfold dcExPtr at h h'
    split at h <;> split at h' <;> simp_all
    all_goals omega
  apart s q h := by
    refine ⟨id, ?_⟩
    unfold dcExPtr at h
    split at h
    · cases h; decide
    · split at h
      · cases h; decide
      · cases h

theorem dcEx_sound : SoundObjects dcExSt := fun i hi => by
  have : 1 ≤ i := hi
  simp [dcExSt]; omega

example : ∃ a st', dcConstruct (fun _ => true) ⟨some 0, 1, dcExPtr, false⟩ (some 0) dcExSt = .ok (some a, st') ∧
    DcBuilt dcExPtr dcExSt a st' ∧ LiveIs (fun _ => False) [] st'.mem dcExPtr := by
  obtain ⟨a, st', e, B, l, -⟩ := C119_create_partial (fun _ => true) dcEx_live dcEx_sound (fun _ _ => rfl) (hist := 0) (c := ⟨1, none⟩) rfl
  exact ⟨a, st', e, B, l⟩

/-- One reference to the radius is kept: its block 3 stays, and block 2 (wavenumber) is lost. -/
example : ∃ a st', dcConstruct (fun _ => true) ⟨some 0, 1, dcExPtr, false⟩ (some 0) dcExSt = .ok (some a, st') ∧
    ∀ st2, DcHeld a (fun f => if f = .arr (.d .rho) then 1 else 0) st' st2 → ∃ st3, dcDealloc a st2 = .ok st3 ∧
      ∀ q, st3.mem.heap.blk q ≠ none → q = 2 ∨ q = 3 := by
  obtain ⟨a, st', e, h⟩ := C119_life_partial (fun _ => true) dcEx_live dcEx_sound (fun _ _ => rfl) (hist := 0) (c := ⟨1, none⟩) rfl
  refine ⟨a, st', e, fun st2 h2 => ?_⟩
  obtain ⟨st3, e3, k, -⟩ := h _ st2 h2
  refine ⟨st3, e3, fun q hq => ?_⟩
  rcases (k q).1 hq with h | h | h | ⟨s, h1, h2⟩
  · exact h.elim
  · cases h
  · exact .inl (by simpa [dcExPtr] using h.symm)
  · have hs : s = .d .rho := by
      by_contra hc
      simp [hc] at h1
    subst hs
    exact .inr (by simpa [dcExPtr] using h2.symm)

example : ∃ a st' st3 i, dcConstruct (fun _ => true) ⟨some 0, 1, dcExPtr, false⟩ (some 0) dcExSt = .ok (some a, st') ∧
    dcDealloc a st' = .ok st3 ∧ a (.arr (.d .k)) = some (.obj i) ∧ st3.objs i = some ⟨1, some 2⟩ ∧
    st3.mem.heap.blk 2 = some () ∧ ¬ False ∧ dcExSt.objs i = none :=
  C119_k_false (fun _ => true) dcEx_live dcEx_sound (fun _ _ => rfl) (c := ⟨1, none⟩) rfl rfl

example : ∃ st', dcConstruct (fun _ => true) ⟨some 0, 1, dcExPtr, true⟩ none dcExSt = .ok (none, st') ∧ st'.exc = true ∧
    st'.objs = dcExSt.objs ∧ LiveIs (fun _ => False) [1] st'.mem (fun _ => none) :=
  C119_fail_false _ dcEx_live

example : dcConstruct (fun _ => true) ⟨some 0, 1, dcExPtr, false⟩ none dcExSt = .ub .nullDeref :=
  C119_history_false _ dcEx_live dcEx_sound fun _ _ => rfl

/-- Eighteen arrays with one reference each: all have three afterwards. -/
example : ∃ st', borrowArrays (fun f => f.ctorIdx) (.rho :: extractOrder)
    ⟨⟨⟨fun _ => some (), 0⟩, 0⟩, fun i => some ⟨1, some i⟩, 0, 0, false⟩ = .ok st' ∧
    st'.objs (DFld.rho.ctorIdx) = some ⟨3, some DFld.rho.ctorIdx⟩ := by
  obtain ⟨st', e, h, -⟩ := C119_inputs_false (fun f => f.ctorIdx) (by intro f g; cases f <;> cases g <;> decide)
    (st := ⟨⟨⟨fun _ => some (), 0⟩, 0⟩, fun i => some ⟨1, some i⟩, 0, 0, false⟩) (f := .rho) (by decide) (by simp) rfl
    (le_refl _) rfl
  exact ⟨st', e, h⟩

end Verif
