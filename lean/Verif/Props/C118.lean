import Verif.Proofs.PyCsvHeap

/-!
# C118 The Python CSV objects: every array keeps its memory alive, and only that long
-/
namespace Verif

namespace Spec

/-- The attributes that hold an array or `None`. -/
def arrayAttributes : List CsvMem :=
  [.B, .D, .fSky, .pNorm, .rawTau, .phase, .phi, .phiRl, .rawThreshold, .rhoCorrPole, .rhoCorrTiming, .rhoDot, .rho, .rx,
   .ry, .rz, .tOet, .tRet, .tSet, .tauPhase, .tauPower, .tauVals]

/-- Names of Python objects that were never used belong to no object. -/
def SoundObjects (st : PySt) : Prop := ∀ i, st.next ≤ i → st.objs i = none

/-- All allocations of Python objects from now on succeed. -/
def PythonAllocates (P : Nat → Bool) (st : PySt) : Prop := ∀ i, st.calls ≤ i → P i = true

/-- The object as it should be after `__init__` took over the arrays of the structure `src`: each array of C has exactly
one Python array, with one reference, that will release exactly this block; a missing array is `None`. -/
structure Built (st : PySt) (src : CSrc) (me : PySelf) (st' : PySt) : Prop where
  heap : st'.mem.heap = src.mem.heap
  quiet : st'.exc = st.exc
  arrays : ∀ f ∈ arrayAttributes, ∀ b, src.ptr f = some b →
    ∃ i, me.attr f = some (.obj i) ∧ st'.objs i = some ⟨1, some b⟩ ∧ st'.mem.heap.blk b = some () ∧ st.mem.heap.blk b = none ∧
      st.objs i = none
  nones : ∀ f ∈ arrayAttributes, src.ptr f = none → me.attr f = some .none
  apart : ∀ f g i, me.attr f = some (.obj i) → me.attr g = some (.obj i) → f = g
  history : ∃ i, me.attr .history = some (.obj i) ∧ st'.objs i = some ⟨2, none⟩ ∧ st.objs i = none
  revInfo : me.revInfo = some .none
  others : ∀ i, st.objs i ≠ none → st'.objs i = st.objs i
  sound : SoundObjects st'

/-- The program keeps `extra f` further references to the value of attribute `f`. -/
structure Held (me : PySelf) (extra : CsvMem → Nat) (st st' : PySt) : Prop where
  mem : st'.mem = st.mem
  objs : ∀ f i c, me.attr f = some (.obj i) → st.objs i = some c → st'.objs i = some { c with refs := c.refs + extra f }

end Spec
open Spec

theorem arrayAttributes_iff (f : CsvMem) : f ∈ arrayAttributes ↔ f ∈ pySteal := by cases f <;> decide

/-- `__init__` with a structure without error. -/
theorem init_ok {K : PyCsvKind} {W : CsvWorld} {P : Nat → Bool} {named : Bool} {self : PySelf} {st : PySt} {src : CSrc}
    (ho : SoundObjects st) (hP : PythonAllocates P st)
    (hx : K.extract W named st.mem = .ok (.inr src)) (he : src.err = false)
    (ha : ∀ f ∈ pySteal, src.ptr f = none → self.attr f = none ∨ self.attr f = some .none)
    (hh : self.attr .history = none ∨ ∃ i, self.attr .history = some (.obj i) ∧ st.objs i = some ⟨2, none⟩)
    (hr : self.revInfo = none ∨ self.revInfo = some .none) :
    ∃ a st', csvObjInit K W P named self st = .ok (1, ⟨a, some .none⟩, st') ∧ st'.mem = src.mem ∧ st'.exc = st.exc ∧
      (∀ f ∈ pySteal, ∀ b, src.ptr f = some b → ∃ i, a f = some (.obj i) ∧ st'.objs i = some ⟨1, some b⟩ ∧ st.objs i = none ∧ st.next ≤ i) ∧
      (∀ f ∈ pySteal, src.ptr f = none → a f = some .none) ∧
      (∀ f ∈ .history :: pySteal, ∀ g ∈ .history :: pySteal, ∀ i, a f = some (.obj i) → a g = some (.obj i) → f = g) ∧
      (∃ i, a .history = some (.obj i) ∧ st'.objs i = some ⟨2, none⟩ ∧ st.objs i = none) ∧
      (∀ f, f ∉ .history :: pySteal → a f = self.attr f) ∧
      (∀ i, st.objs i ≠ none → self.attr .history ≠ some (.obj i) → st'.objs i = st.objs i) ∧
      SoundObjects st' := by
  have hnot : CsvMem.history ∉ pySteal := by decide
  obtain ⟨a1, st1, e1, Q⟩ := createArrays_ok (P := P) (ptr := src.ptr) pySteal self.attr { st with mem := src.mem } pySteal_nodup
    hP ho ha
  have hnx : st.next ≤ st1.next := Q.next
  have hh1 : a1 .history = self.attr .history := Q.other _ hnot
  obtain ⟨st2, hst2⟩ : ∃ s : PySt, s = { ({ st1 with calls := st1.calls + 1 } : PySt).put st1.next (some ⟨2, none⟩) with next := st1.next + 1 } :=
    ⟨_, rfl⟩
  have hobj2 : ∀ i, st2.objs i = if i = st1.next then some ⟨2, none⟩ else st1.objs i := by intro i; rw [hst2]; rfl
  have hlt : ∀ i, st.objs i ≠ none → i < st.next := fun i h => by
    by_contra hc
    exact h (ho i (by omega))
  -- the release of the old history
  obtain ⟨st3, e3, m3, x3, n3, o3, o3'⟩ : ∃ st3, st2.decref (a1 .history) = .ok st3 ∧ st3.mem = st2.mem ∧ st3.exc = st2.exc ∧
      st3.next = st2.next ∧ (∀ i, self.attr .history ≠ some (.obj i) → st3.objs i = st2.objs i) ∧
      (∀ i, st.objs i = none → st3.objs i = st2.objs i) := by
    rw [hh1]
    rcases hh with h | ⟨j, h, hj⟩
    · rw [h]; exact ⟨st2, rfl, rfl, rfl, rfl, fun _ _ => rfl, fun _ _ => rfl⟩
    · rw [h]
      have hjl := hlt j (by rw [hj]; simp)
      have hj2 : st2.objs j = some ⟨2, none⟩ := by
        rw [hobj2, if_neg (by omega), Q.old j hjl]; exact hj
      refine ⟨st2.put j (some ⟨1, none⟩), by simp [PySt.decref, hj2], rfl, rfl, rfl, ?_, ?_⟩
      · intro i hi
        have : i ≠ j := fun e => hi (by rw [e])
        simp [PySt.put, this]
      · intro i hi
        have : i ≠ j := fun e => by rw [e, hj] at hi; cases hi
        simp [PySt.put, this]
  have hinit : csvObjInit K W P named self st = .ok (1, ⟨setAttr a1 .history (some (.obj st1.next)), some .none⟩, st3) := by
    have e2 : createHistory P a1 st1 = .ok (setAttr a1 .history (some (.obj st1.next)), st3) := by
      unfold createHistory
      have : P st1.calls = true := hP _ Q.calls
      simp only [this, Bool.not_true, Bool.false_eq_true, if_false, PySt.fresh]
      rw [← hst2, e3]; rfl
    have e4 : st3.decref self.revInfo = .ok st3 := by
      rcases hr with h | h <;> rw [h] <;> rfl
    unfold csvObjInit
    simp only [hx, Res.ok_bind, he, Bool.false_eq_true, if_false, e1, e2, e4]
  have hge : ∀ i, st.next ≤ i → st3.objs i = st2.objs i := fun i hi => o3' i (ho i hi)
  have hat : ∀ f ∈ pySteal, setAttr a1 .history (some (.obj st1.next)) f = a1 f := fun f hf => by
    have : f ≠ .history := fun e => hnot (e ▸ hf)
    simp [setAttr, this]
  have hah : setAttr a1 .history (some (.obj st1.next)) .history = some (.obj st1.next) := by simp [setAttr]
  have hfr : ∀ f ∈ pySteal, a1 f ≠ some (.obj st1.next) := by
    intro f hf hc
    cases h0 : src.ptr f with
    | none => rw [Q.nones f hf h0] at hc; cases hc
    | some b =>
      obtain ⟨i, -, i2, i3, -⟩ := Q.arrs f hf b h0
      rw [i3] at hc; cases hc; omega
  refine ⟨_, st3, hinit, ?_, ?_, ?_, ?_, ?_, ?_, ?_, ?_, ?_⟩
  · rw [m3, hst2]; exact Q.mem
  · rw [x3, hst2]; exact Q.exc
  · intro f hf b h0
    obtain ⟨i, i1, i2, i3, i4⟩ := Q.arrs f hf b h0
    have i1' : st.next ≤ i := i1
    refine ⟨i, by rw [hat f hf, i3], ?_, ho i i1', i1'⟩
    rw [hge i i1', hobj2, if_neg (by omega), i4]
  · intro f hf h0
    rw [hat f hf, Q.nones f hf h0]
  · intro f hf g hg i h1 h2
    rcases List.mem_cons.1 hf with rfl | hf' <;> rcases List.mem_cons.1 hg with rfl | hg'
    · rfl
    · rw [hah] at h1; cases h1
      rw [hat g hg'] at h2
      exact absurd h2 (hfr g hg')
    · rw [hah] at h2; cases h2
      rw [hat f hf'] at h1
      exact absurd h1 (hfr f hf')
    · rw [hat f hf'] at h1
      rw [hat g hg'] at h2
      exact Q.inj f hf' g hg' i h1 h2
  · exact ⟨st1.next, hah, by rw [hge _ hnx, hobj2, if_pos rfl], ho _ hnx⟩
  · intro f hf
    rw [List.mem_cons, not_or] at hf
    simp only [setAttr, if_neg hf.1]
    exact Q.other f hf.2
  · intro i hi hn
    rw [o3 i hn, hobj2, if_neg (by have := hlt i hi; omega), Q.old i (hlt i hi)]
  · intro i hi
    rw [n3, hst2] at hi
    have hi : st1.next + 1 ≤ i := hi
    rw [hge i (by omega), hobj2, if_neg (by omega)]
    exact Q.fresh i (by omega)

/-- **C118**, making an object: the attributes own the arrays of C, one to one. -/
theorem C118_create_partial (K : PyCsvKind) (W : CsvWorld) (P : Nat → Bool) (named : Bool) (st : PySt) (src : CSrc)
    (hs : SoundHeap st.mem.heap) (ho : SoundObjects st) (hP : PythonAllocates P st)
    (hx : K.extract W named st.mem = .ok (.inr src)) (he : src.err = false) :
    ∃ self st', pyConstruct K W P named st = .ok (some self, st') ∧ Built st src self st' := by
  have S := extract_src hs hx he
  obtain ⟨a, st', e, k1, k2, k3, k4, k5, k6, k7, k8, k9⟩ := init_ok (self := ⟨fun _ => none, none⟩) ho hP hx he
    (fun _ _ _ => .inl rfl) (.inl rfl) (.inl rfl)
  refine ⟨⟨a, some .none⟩, st', ?_, ?_⟩
  · unfold pyConstruct
    rw [e]; rfl
  · refine ⟨by rw [k1], k2, ?_, ?_, ?_, k6, rfl, fun i hi => k8 i hi (by simp), k9⟩
    · intro f hf b hb
      rw [arrayAttributes_iff] at hf
      obtain ⟨i, i1, i2, i3, -⟩ := k3 f hf b hb
      have hm : b ∈ pySteal.filterMap src.ptr ++ [src.self] := List.mem_append_left _ (List.mem_filterMap.2 ⟨f, hf, hb⟩)
      exact ⟨i, i1, i2, by rw [k1]; exact S.H.live b hm, S.H.old b hm, i3⟩
    · intro f hf hb
      rw [arrayAttributes_iff] at hf
      exact k4 f hf hb
    · intro f g i h1 h2
      have hin : ∀ f, a f = some (.obj i) → f ∈ .history :: pySteal := fun f h => by
        by_contra hn
        rw [k7 f hn] at h; cases h
      exact k5 f (hin f h1) g (hin g h2) i h1 h2

theorem split_perm {α : Type} (extra : α → Nat) (p : α → Option Nat) : ∀ fs : List α, (fs.filterMap p).Perm
    ((fs.filterMap fun f => if extra f = 0 then p f else none) ++ (fs.filterMap fun f => if extra f = 0 then none else p f))
  | [] => by simp
  | f :: fs => by
    have ih := split_perm extra p fs
    rw [filterMap_cons_any, filterMap_cons_any (fun f => if extra f = 0 then p f else none),
      filterMap_cons_any (fun f => if extra f = 0 then none else p f)]
    by_cases h0 : extra f = 0
    · simp only [h0, if_true, Option.toList_none, List.nil_append, List.append_assoc]
      exact ih.append_left _
    · simp only [h0, if_false, Option.toList_none, List.nil_append]
      exact (ih.append_left _).trans (List.perm_append_comm_assoc _ _ _)

theorem frees_perm {q : CsvMem → Option Nat} (h : q .history = none) : (pySteal.filterMap q).Perm (pyFrees.filterMap q) := by
  have := pyFrees_perm.filterMap q
  rw [filterMap_cons_opt, h] at this
  exact this.symm

/-- The release of an object of which further references are held. -/
theorem dealloc_ok {h0 : Heap Unit} {st : PySt} {src : CSrc} {self : PySelf} {extra : CsvMem → Nat} {st' : PySt}
    (S : SrcOk h0 src) (hheap : st.mem.heap = src.mem.heap)
    (harr : ∀ f ∈ pySteal, ∀ b, src.ptr f = some b → ∃ i, self.attr f = some (.obj i) ∧ st.objs i = some ⟨1, some b⟩)
    (hnone : ∀ f ∈ pySteal, src.ptr f = none → self.attr f = some .none)
    (hinj : ∀ f ∈ .history :: pySteal, ∀ g ∈ .history :: pySteal, ∀ i, self.attr f = some (.obj i) → self.attr g = some (.obj i) → f = g)
    (hhist : ∃ i, self.attr .history = some (.obj i) ∧ st.objs i = some ⟨2, none⟩)
    (hrev : self.revInfo = some .none) (hheld : Held self extra st st') :
    ∃ st'', pyDealloc self st' = .ok st'' ∧ st''.exc = st'.exc ∧
      (∀ p, (p = src.self ∨ ∃ f, 0 < extra f ∧ src.ptr f = some p) → st''.mem.heap.blk p = some ()) ∧
      (∀ p, ¬ (p = src.self ∨ ∃ f, 0 < extra f ∧ src.ptr f = some p) → st''.mem.heap.blk p = h0.blk p) ∧
      (∀ f ∈ pySteal, ∀ i b, self.attr f = some (.obj i) → src.ptr f = some b →
        st''.objs i = if extra f = 0 then none else some ⟨extra f, some b⟩) ∧
      (∀ i, self.attr .history = some (.obj i) → st''.objs i = some ⟨1 + extra .history, none⟩) ∧
      (∀ i, (∀ f ∈ .history :: pySteal, self.attr f ≠ some (.obj i)) → st''.objs i = st'.objs i) := by
  have hobj : ∀ f ∈ pySteal, ∀ b, src.ptr f = some b → ∃ i, self.attr f = some (.obj i) ∧ st'.objs i = some ⟨1 + extra f, some b⟩ := by
    intro f hf b hb
    obtain ⟨i, i1, i2⟩ := harr f hf b hb
    exact ⟨i, i1, hheld.objs f i _ i1 i2⟩
  obtain ⟨j, j1, j2⟩ := hhist
  have hhis : st'.objs j = some ⟨2 + extra .history, none⟩ := hheld.objs _ j _ j1 j2
  have hdue : ∀ f ∈ pySteal, dueBlock self.attr st' f = if extra f = 0 then src.ptr f else none := by
    intro f hf
    cases hb : src.ptr f with
    | none => simp [dueBlock, hnone f hf hb]
    | some b =>
      obtain ⟨i, i1, i2⟩ := hobj f hf b hb
      by_cases h0 : extra f = 0 <;> simp [dueBlock, i1, i2, h0]
  have hdueh : dueBlock self.attr st' .history = none := by simp [dueBlock, j1, hhis]
  -- the blocks to be released and those to be kept
  have hsplit : (pySteal.filterMap src.ptr).Perm ((pySteal.filterMap (dueBlock self.attr st')) ++
      (pySteal.filterMap fun f => if extra f = 0 then none else src.ptr f)) := by
    rw [filterMap_same hdue]
    exact split_perm extra src.ptr pySteal
  have hfr := frees_perm hdueh
  have H : Holds h0 st'.mem.heap (pyFrees.filterMap (dueBlock self.attr st') ++
      ((pySteal.filterMap fun f => if extra f = 0 then none else src.ptr f) ++ [src.self])) := by
    rw [hheld.mem, hheap]
    refine S.H.perm ?_
    rw [← List.append_assoc]
    exact (hsplit.trans (hfr.append_right _)).append_right _
  have hall : ∀ f, f ∈ pyFrees ↔ f ∈ .history :: pySteal := fun f => pyFrees_perm.mem_iff
  obtain ⟨st'', e, H', x, p1, p2⟩ := decrefs_ok (a := self.attr) pyFrees st' pyFrees_nodup
    (by
      intro f hf i hfi
      rcases List.mem_cons.1 ((hall f).1 hf) with rfl | hf'
      · rw [j1] at hfi; cases hfi; rw [hhis]; simp
      · cases hb : src.ptr f with
        | none => rw [hnone f hf' hb] at hfi; cases hfi
        | some b =>
          obtain ⟨k, k1, k2⟩ := hobj f hf' b hb
          rw [k1] at hfi; cases hfi; rw [k2]; simp)
    (fun f hf g hg => hinj f ((hall f).1 hf) g ((hall g).1 hg)) H
  have hm : ∀ p, p ∈ ((pySteal.filterMap fun f => if extra f = 0 then none else src.ptr f) ++ [src.self]) ↔
      (p = src.self ∨ ∃ f, 0 < extra f ∧ src.ptr f = some p) := by
    intro p
    rw [List.mem_append, List.mem_singleton, List.mem_filterMap]
    constructor
    · rintro (⟨f, hf, hfp⟩ | h)
      · by_cases h0 : extra f = 0
        · rw [if_pos h0] at hfp; cases hfp
        · rw [if_neg h0] at hfp
          exact .inr ⟨f, by omega, hfp⟩
      · exact .inl h
    · rintro (h | ⟨f, h0, hfp⟩)
      · exact .inr h
      · refine .inl ⟨f, ?_, by rw [if_neg (by omega)]; exact hfp⟩
        by_contra hn
        rw [S.supp f hn] at hfp; cases hfp
  refine ⟨st'', ?_, x, fun p hp => H'.live p ((hm p).2 hp), fun p hp => H'.rest p fun h => hp ((hm p).1 h), ?_, ?_, ?_⟩
  · have hd : st'.decref self.revInfo = .ok st' := by rw [hrev]; rfl
    unfold pyDealloc
    rw [hd, Res.ok_bind, e]
  · intro f hf i b hfi hb
    obtain ⟨k, k1, k2⟩ := hobj f hf b hb
    rw [k1] at hfi; cases hfi
    rw [p2 f ((hall f).2 (List.mem_cons_of_mem _ hf)) _ k1, k2]
    by_cases h0 : extra f = 0
    · simp [released, h0]
    · rw [if_neg h0]
      simp only [Option.bind_some, released]
      rw [if_neg (by omega)]
      simp
  · intro i hi
    rw [p2 .history ((hall _).2 List.mem_cons_self) i hi]
    rw [j1] at hi; cases hi
    rw [hhis]
    simp only [Option.bind_some, released]
    rw [if_neg (by omega), show 2 + extra .history - 1 = 1 + extra .history by omega]
  · intro i hi
    exact p1 i fun f hf => hi f ((hall f).1 hf)

/-- **C118**, the end of an object, with any number of further references to its arrays: the arrays without such a reference
are released with their memory, the others stay with as many references as are held; every other block is as before, except
the structure of C itself, which is lost, and the dictionary of the history, which keeps one reference too many. -/
theorem C118_life_partial (K : PyCsvKind) (W : CsvWorld) (P : Nat → Bool) (named : Bool) (st : PySt) (src : CSrc)
    (hs : SoundHeap st.mem.heap) (ho : SoundObjects st) (hP : PythonAllocates P st)
    (hx : K.extract W named st.mem = .ok (.inr src)) (he : src.err = false) :
    ∃ self st', pyConstruct K W P named st = .ok (some self, st') ∧
      ∀ (extra : CsvMem → Nat) (st2 : PySt), Held self extra st' st2 → ∃ st3, pyDealloc self st2 = .ok st3 ∧
        (∀ p, (p = src.self ∨ ∃ f, 0 < extra f ∧ src.ptr f = some p) → st3.mem.heap.blk p = some ()) ∧
        (∀ p, ¬ (p = src.self ∨ ∃ f, 0 < extra f ∧ src.ptr f = some p) → st3.mem.heap.blk p = st.mem.heap.blk p) ∧
        (∀ f ∈ arrayAttributes, ∀ i, self.attr f = some (.obj i) →
          st3.objs i = if extra f = 0 then none else some ⟨extra f, src.ptr f⟩) ∧
        (∀ i, self.attr .history = some (.obj i) → st3.objs i = some ⟨1 + extra .history, none⟩) ∧
        (∀ i, (∀ f, self.attr f ≠ some (.obj i)) → st3.objs i = st2.objs i) := by
  obtain ⟨self, st', e, B⟩ := C118_create_partial K W P named st src hs ho hP hx he
  refine ⟨self, st', e, fun extra st2 hheld => ?_⟩
  obtain ⟨st3, e3, -, h1, h1', h2, h3, h4⟩ := dealloc_ok (extract_src hs hx he) B.heap
    (fun f hf b hb => by
      obtain ⟨i, i1, i2, -⟩ := B.arrays f ((arrayAttributes_iff f).2 hf) b hb
      exact ⟨i, i1, i2⟩)
    (fun f hf => B.nones f ((arrayAttributes_iff f).2 hf))
    (fun f _ g _ => B.apart f g)
    (by obtain ⟨i, i1, i2, -⟩ := B.history; exact ⟨i, i1, i2⟩) B.revInfo hheld
  refine ⟨st3, e3, h1, h1', ?_, h3, fun i hi => h4 i fun f _ => hi f⟩
  intro f hf i hfi
  cases hb : src.ptr f with
  | none => rw [B.nones f hf hb] at hfi; cases hfi
  | some b => exact h2 f ((arrayAttributes_iff f).1 hf) i b hfi hb

/-- **C118**, completeness for `ExtractCSVData` and `GetUranusData`: if all is read, all arrays are there; those of the tau
file are `None` without one. -/
theorem C118_full (M : CsvKind) (W : CsvWorld) (P : Nat → Bool) (st : PySt)
    (hs : SoundHeap st.mem.heap) (ho : SoundObjects st) (hP : PythonAllocates P st)
    (h1 : ReadComplete M W st.mem.calls) (h2 : AllSucceed W.A (st.mem.calls + callsBeforeCopies M W) (copies M W))
    (h3 : W.chord = false) (h4 : W.interp = false) :
    ∃ self st', pyConstruct (.csv M) W P true st = .ok (some self, st') ∧
      ∀ f ∈ fullMembers W, ∃ i b, self.attr f = some (.obj i) ∧ st'.objs i = some ⟨1, some b⟩ ∧ st'.mem.heap.blk b = some () := by
  obtain ⟨s, e, -, he, hf, -⟩ := C43_complete M W st.mem hs h1 h2
  have hx : (PyCsvKind.csv M).extract W true st.mem = .ok (.inr ⟨s.mem, s.self, s.ptr, s.err, ownDestroy M s⟩) := by
    simp [PyCsvKind.extract, e]
  obtain ⟨self, st', ec, B⟩ := C118_create_partial (.csv M) W P true st _ hs ho hP hx (by simp [he, h3, h4])
  refine ⟨self, st', ec, fun f hfm => ?_⟩
  obtain ⟨b, hb⟩ := Option.isSome_iff_exists.1 (hf f hfm)
  have hin : f ∈ arrayAttributes := by
    unfold fullMembers at hfm
    rw [List.mem_append] at hfm
    rcases hfm with h | h
    · revert h; cases f <;> decide
    · cases ht : W.tau with
      | none => rw [ht] at h; cases h
      | some v =>
        rw [ht] at h
        have h : f ∈ [CsvMem.tauPhase, .tauPower, .tauVals] := h
        revert h; cases f <;> decide
  obtain ⟨i, i1, i2, i3, -⟩ := B.arrays f hin b hb
  exact ⟨i, b, i1, i2, i3⟩

/-- What happens in `__init__` when the structure could not be made or has an error. -/
theorem construct_fail {K : PyCsvKind} {W : CsvWorld} {P : Nat → Bool} {named : Bool} {st : PySt} {m : Mem}
    (h : K.extract W named st.mem = .ok (.inl m) ∨
      ∃ src, K.extract W named st.mem = .ok (.inr src) ∧ src.err = true ∧ src.gone = .ok m) :
    pyConstruct K W P named st = .ok (none, { st with
      mem := m
      exc := true }) := by
  have hd : ∀ st : PySt, pyDealloc ⟨fun _ => none, none⟩ st = .ok st := by
    intro st
    have : ∀ fs : List CsvMem, decrefs (fun _ => none) fs st = .ok st := by
      intro fs
      induction fs with
      | nil => rfl
      | cons f fs ih => simp [decrefs, PySt.decref, ih]
    simp only [pyDealloc, PySt.decref, Res.ok_bind, this]
  unfold pyConstruct csvObjInit
  rcases h with h | ⟨src, h, he, hg⟩
  · simp only [h, Res.ok_bind, hd]
    rfl
  · simp only [h, Res.ok_bind, he, if_true, hg, hd]
    rfl

/-- **C118**, failure of `ExtractCSVData` outside the two situations of C43: an exception, no object, and no memory lost. -/
theorem C118_fail_cassini_partial (d : Bool) (W : CsvWorld) (P : Nat → Bool) (st : PySt) (hs : SoundHeap st.mem.heap)
    (h1 : ¬ TauObjectFails (.cassini d) W st.mem.calls) (h2 : ¬ CopyFails (.cassini d) W st.mem.calls)
    (h : ¬ (ReadComplete (.cassini d) W st.mem.calls ∧ W.chord = false ∧ W.interp = false)) :
    ∃ st', pyConstruct (.csv (.cassini d)) W P true st = .ok (none, st') ∧ st'.exc = true ∧ st'.objs = st.objs ∧
      ∀ p, st'.mem.heap.blk p = st.mem.heap.blk p := by
  rcases C43_cassini_partial d W st.mem hs h1 h2 with ⟨-, m', e, hm⟩ | ⟨s, e, -, ⟨m', e', hm⟩, hi, -⟩
  · refine ⟨_, construct_fail (m := m') (.inl ?_), rfl, rfl, fun p => by rw [hm]⟩
    simp [PyCsvKind.extract, e]
  · refine ⟨_, construct_fail (m := m') (.inr ⟨⟨s.mem, s.self, s.ptr, s.err, ownDestroy (.cassini d) s⟩, ?_, ?_, e'⟩), rfl, rfl, hm⟩
    · simp [PyCsvKind.extract, e]
    · cases hq : s.err
      · exact absurd (hi.1 hq) h
      · rfl

/-- **C118**, `GetMergedCSVData` for every file and every pattern of failing allocations of C: either the object is complete,
or there is an exception and no memory is lost. -/
theorem C118_merged (W : CsvWorld) (P : Nat → Bool) (st : PySt)
    (hs : SoundHeap st.mem.heap) (ho : SoundObjects st) (hP : PythonAllocates P st) :
    (Usable W.dlp ∧ AllSucceed W.A st.mem.calls 23 ∧
      ∃ self st', pyConstruct .merged W P true st = .ok (some self, st') ∧ st'.exc = st.exc ∧
        ∀ f ∈ arrayAttributes, ∃ i b, self.attr f = some (.obj i) ∧ st'.objs i = some ⟨1, some b⟩ ∧
          st'.mem.heap.blk b = some () ∧ st.mem.heap.blk b = none) ∨
    (¬ (Usable W.dlp ∧ AllSucceed W.A st.mem.calls 23) ∧
      ∃ st', pyConstruct .merged W P true st = .ok (none, st') ∧ st'.exc = true ∧ st'.objs = st.objs ∧
        ∀ p, st'.mem.heap.blk p = st.mem.heap.blk p) := by
  have H0 : Holds st.mem.heap st.mem.heap [] := ⟨List.nodup_nil, by simp, fun _ _ => rfl, by simp, hs⟩
  obtain ⟨m', o, e, km, H, k, k1, k2, k3⟩ := extractObj_ok W.A mergedFmt_ok W.dlp H0
  have hlen : 1 + mergedFmt.allocs.length = 23 := rfl
  rw [hlen] at k3
  cases ho' : o with
  | none =>
    subst ho'
    have hA := k1 rfl
    right
    refine ⟨fun hc => ?_, _, construct_fail (m := m') (.inl ?_), rfl, rfl, fun p => by rw [(k2 hA).2]⟩
    · have := hc.2 0 (by decide)
      rw [Nat.add_zero, hA] at this; cases this
    · simp [PyCsvKind.extract, e]
  | some x =>
    subst ho'
    have hx : PyCsvKind.merged.extract W true st.mem = .ok (.inr ⟨m', x.addr, x.ptr, x.err, destroyObj mergedFmt (some x) m'⟩) := by
      simp [PyCsvKind.extract, e]
    cases hq : x.err
    · left
      obtain ⟨q1, -, -, q4, -, -, q7⟩ := k x rfl hq
      obtain ⟨self, st', ec, B⟩ := C118_create_partial .merged W P true st _ hs ho hP hx hq
      refine ⟨q1, by rw [hlen] at q7; exact q7, self, st', ec, B.quiet, fun f hf => ?_⟩
      obtain ⟨b, hb⟩ := Option.isSome_iff_exists.1 (q4 f ((mergedFmt_mem f).2 ((arrayAttributes_iff f).1 hf)))
      obtain ⟨i, i1, i2, i3, i4, -⟩ := B.arrays f hf b hb
      exact ⟨i, b, i1, i2, i3, i4⟩
    · right
      obtain ⟨m2, e2, H2, -⟩ := destroyObj_ok mergedFmt_ok km (l := []) H
      refine ⟨fun hc => ?_, _, construct_fail (m := m2) (.inr ⟨_, hx, hq, e2⟩), rfl, rfl, fun p => H2.rest p (by simp)⟩
      obtain ⟨y, hy, hye⟩ := k3 hc.1 hc.2
      cases hy
      rw [hq] at hye; cases hye

/-- The negation of **C118** (nothing is lost): after the object has gone, and with no reference held to any of its parts, the
structure of C is still there, and so is the dictionary of the history. -/
theorem C118_leak_false (K : PyCsvKind) (W : CsvWorld) (P : Nat → Bool) (named : Bool) (st : PySt) (src : CSrc)
    (hs : SoundHeap st.mem.heap) (ho : SoundObjects st) (hP : PythonAllocates P st)
    (hx : K.extract W named st.mem = .ok (.inr src)) (he : src.err = false) :
    ∃ self st' st3, pyConstruct K W P named st = .ok (some self, st') ∧ pyDealloc self st' = .ok st3 ∧
      st.mem.heap.blk src.self = none ∧ st3.mem.heap.blk src.self = some () ∧
      ∃ i, st.objs i = none ∧ st3.objs i = some ⟨1, none⟩ := by
  obtain ⟨self, st', e, B⟩ := C118_create_partial K W P named st src hs ho hP hx he
  obtain ⟨self', st'', e', L⟩ := C118_life_partial K W P named st src hs ho hP hx he
  rw [e] at e'; cases e'
  obtain ⟨st3, e3, l1, -, -, l3, -⟩ := L (fun _ => 0) st' ⟨rfl, fun f i c _ hc => by simpa using hc⟩
  obtain ⟨i, i1, -, i3⟩ := B.history
  refine ⟨self, st', st3, e, e3, ?_, l1 _ (.inl rfl), i, i3, l3 i i1⟩
  exact (extract_src hs hx he).H.old _ (by simp)

/-- The negation of **C118** for a second call of `__init__` on the same object: all arrays of the first call are lost, although
the object goes afterwards. -/
theorem C118_reinit_false (K : PyCsvKind) (W W' : CsvWorld) (P : Nat → Bool) (named : Bool) (st : PySt) (src src' : CSrc)
    (self : PySelf) (st1 : PySt)
    (hs : SoundHeap st.mem.heap) (ho : SoundObjects st) (hP : ∀ i, P i = true)
    (hx : K.extract W named st.mem = .ok (.inr src)) (he : src.err = false)
    (h1 : pyConstruct K W P named st = .ok (some self, st1))
    (hx' : K.extract W' named st1.mem = .ok (.inr src')) (he' : src'.err = false)
    (hsame : ∀ f ∈ arrayAttributes, src'.ptr f = none → src.ptr f = none) :
    ∃ self' st2 st3, csvObjInit K W' P named self st1 = .ok (1, self', st2) ∧ pyDealloc self' st2 = .ok st3 ∧
      (∀ f ∈ arrayAttributes, ∀ b, src.ptr f = some b → st.mem.heap.blk b = none ∧ st3.mem.heap.blk b = some ()) ∧
      (∀ f ∈ arrayAttributes, ∀ b, src'.ptr f = some b → st3.mem.heap.blk b = none) := by
  obtain ⟨self0, st0, e0, B⟩ := C118_create_partial K W P named st src hs ho (fun i _ => hP i) hx he
  rw [h1] at e0; cases e0
  have S := extract_src hs hx he
  have hs1 : SoundHeap st1.mem.heap := by rw [B.heap]; exact S.H.fresh
  have S' := extract_src hs1 hx' he'
  obtain ⟨a, st2, e2, k1, -, k3, k4, k5, ⟨j, j1, j2, -⟩, -⟩ := init_ok (self := self) B.sound (fun i _ => hP i) hx' he'
    (fun f hf h0 => .inr (B.nones f ((arrayAttributes_iff f).2 hf) (hsame f ((arrayAttributes_iff f).2 hf) h0)))
    (by obtain ⟨i, i1, i2, -⟩ := B.history; exact .inr ⟨i, i1, i2⟩) (.inr B.revInfo)
  obtain ⟨st3, e3, -, d0, d1, -⟩ := dealloc_ok (self := ⟨a, some .none⟩) (extra := fun _ => 0) (st' := st2) S' (by rw [k1])
    (fun f hf b hb => by
      obtain ⟨i, i1, i2, -⟩ := k3 f hf b hb
      exact ⟨i, i1, i2⟩) k4 k5 ⟨j, j1, j2⟩ rfl ⟨rfl, fun f i c _ hc => by simpa using hc⟩
  refine ⟨_, st2, st3, e2, e3, ?_, ?_⟩
  · intro f hf b hb
    obtain ⟨i, -, -, i3, i4, -⟩ := B.arrays f hf b hb
    refine ⟨i4, ?_⟩
    by_cases hp : b = src'.self ∨ ∃ f, 0 < (fun _ => 0 : CsvMem → Nat) f ∧ src'.ptr f = some b
    · exact d0 b hp
    · rw [d1 b hp]; exact i3
  · intro f hf b hb
    have hm : b ∈ pySteal.filterMap src'.ptr := List.mem_filterMap.2 ⟨f, (arrayAttributes_iff f).1 hf, hb⟩
    rw [d1]
    · exact S'.H.old b (List.mem_append_left _ hm)
    · rintro (h | ⟨g, hg, -⟩)
      · exact (List.nodup_append.1 S'.H.nodup).2.2 b hm b (by rw [h]; simp) rfl
      · omega

/-- The negation of **C118** when a capsule cannot be made: `__init__` reports success although an exception is set, the
attribute is a null pointer, and its array is lost.  (Here the capsule of the radius, the second allocation.) -/
theorem C118_capsule_false (K : PyCsvKind) (W : CsvWorld) (P : Nat → Bool) (named : Bool) (st : PySt) (src : CSrc) (b : Nat)
    (hs : SoundHeap st.mem.heap) (ho : SoundObjects st) (hP : ∀ i, P i = decide (i ≠ st.calls + 1))
    (hx : K.extract W named st.mem = .ok (.inr src)) (he : src.err = false) (hb : src.ptr .rho = some b) :
    ∃ self st', pyConstruct K W P named st = .ok (some self, st') ∧ st'.exc = true ∧ self.attr .rho = none ∧
      st'.mem.heap.blk b = some () ∧ ∀ i c, st'.objs i = some c → st.objs i = none → c.base ≠ some b := by
  have S := extract_src hs hx he
  have hfs : pySteal = .rho :: pySteal.tail := rfl
  have e0 : createArray P (src.ptr .rho) CsvMem.rho (fun _ => none) { st with mem := src.mem } =
      .ok (fun _ => none, { st with
        mem := src.mem
        calls := st.calls + 2
        exc := true }) := by
    simp [hb, createArray, hP]
  obtain ⟨a, st1, e1, Q⟩ := createArrays_ok (P := P) (ptr := src.ptr) pySteal.tail (fun _ => none) { st with
    mem := src.mem
    calls := st.calls + 2
    exc := true } (by decide) (fun i hi => by
      have hi : st.calls + 2 ≤ i := hi
      rw [hP, decide_eq_true_eq]; omega) ho (fun _ _ _ => .inl rfl)
  have hcs : st.calls + 2 ≤ st1.calls := Q.calls
  have hnx : st.next ≤ st1.next := Q.next
  have hah : a .history = none := Q.other _ (by decide)
  obtain ⟨st2, hst2⟩ : ∃ s : PySt, s = { ({ st1 with calls := st1.calls + 1 } : PySt).put st1.next (some ⟨2, none⟩) with next := st1.next + 1 } :=
    ⟨_, rfl⟩
  have e2 : createHistory P a st1 = .ok (setAttr a .history (some (.obj st1.next)), st2) := by
    unfold createHistory
    have : P st1.calls = true := by rw [hP, decide_eq_true_eq]; omega
    simp only [this, Bool.not_true, Bool.false_eq_true, if_false, PySt.fresh, hah, PySt.decref, Res.ok_bind, hst2]
  have e12 : createArrays P src.ptr pySteal (fun _ => none) { st with mem := src.mem } = .ok (a, st1) := by
    rw [hfs, createArrays, e0, Res.ok_bind]
    exact e1
  refine ⟨⟨setAttr a .history (some (.obj st1.next)), some .none⟩, st2, ?_, by rw [hst2]; exact Q.exc, ?_, ?_, ?_⟩
  · unfold pyConstruct csvObjInit
    simp only [hx, Res.ok_bind, he, Bool.false_eq_true, if_false, e12, e2, PySt.decref]
    rfl
  · show setAttr a .history (some (.obj st1.next)) .rho = none
    rw [setAttr, if_neg (by decide)]
    exact Q.other _ (by decide)
  · have hm : st2.mem = src.mem := by rw [hst2]; exact Q.mem
    rw [hm]
    exact S.H.live b (List.mem_append_left _ (List.mem_filterMap.2 ⟨.rho, by decide, hb⟩))
  · intro i c hc hi hcb
    have hc : (if i = st1.next then some ⟨2, none⟩ else st1.objs i) = some c := by rw [hst2] at hc; exact hc
    split at hc
    · cases hc; cases hcb
    · by_cases hin : i < st.next
      · have : st1.objs i = st.objs i := Q.old i hin
        rw [this, hi] at hc; cases hc
      · obtain ⟨f, hf, -, h2⟩ := Q.only i c (Nat.le_of_not_lt hin) hc
        rw [hcb] at h2
        have := filterMap_inj (List.nodup_append.1 S.H.nodup).1 (List.mem_of_mem_tail hf) (by decide : CsvMem.rho ∈ pySteal) h2.symm hb
        rw [this] at hf
        exact absurd hf (by decide)

/-- The negation of **C118** when the class is called without file names: the arguments are all optional for the parser, and
`fopen` gets a null pointer. -/
theorem C118_noname_false (K : PyCsvKind) (W : CsvWorld) (P : Nat → Bool) (st : PySt)
    (hA : W.A st.mem.calls = true) (hA' : W.A (st.mem.calls + 1) = true) :
    pyConstruct K W P false st = .ub .nullDeref := by
  have : K.extract W false st.mem = .ub .nullDeref := by
    unfold PyCsvKind.extract
    rw [if_pos]
    cases K <;> simp [PyCsvKind.beforeOpen, List.range_succ, hA, hA']
  unfold pyConstruct csvObjInit
  rw [this]; rfl

/-- For `GetMergedCSVData` the memory for the structure is enough: only one allocation comes before `fopen`. -/
theorem C118_noname_merged_false (W : CsvWorld) (P : Nat → Bool) (st : PySt) (hA : W.A st.mem.calls = true) :
    pyConstruct .merged W P false st = .ub .nullDeref := by
  have : PyCsvKind.merged.extract W false st.mem = .ub .nullDeref := by
    unfold PyCsvKind.extract
    rw [if_pos]
    simp [PyCsvKind.beforeOpen, hA]
  unfold pyConstruct csvObjInit
  rw [this]; rfl

/-! ### Examples -/

/-- A start: one block and one Python object exist already. -/
def startPy : PySt := ⟨startMem, fun i => if i = 0 then some ⟨3, none⟩ else none, 1, 0, false⟩

theorem startPy_objects : SoundObjects startPy := by
  intro i hi
  have hi : 1 ≤ i := hi
  simp [startPy, show i ≠ 0 by omega]

/-- What the merged file gives at the start. -/
theorem merged_start : ∃ src, PyCsvKind.merged.extract (failAt 1000) true startPy.mem = .ok (.inr src) ∧ src.err = false ∧
    (src.ptr .rho).isSome := by
  have H0 : Holds startMem.heap startMem.heap [] := ⟨List.nodup_nil, by simp, fun _ _ => rfl, by simp, startMem_sound⟩
  obtain ⟨m', o, e, -, -, k, -, -, k3⟩ := extractObj_ok (failAt 1000).A mergedFmt_ok (failAt 1000).dlp H0
  obtain ⟨x, rfl, hx⟩ := k3 ⟨rfl, rfl, by decide⟩ (failAt_succeed (k := 1000) (.inr (by decide)))
  refine ⟨⟨m', x.addr, x.ptr, x.err, destroyObj mergedFmt (some x) m'⟩, ?_, hx, (k x rfl hx).2.2.2.1 .rho (by decide)⟩
  have e : extractObj (failAt 1000).A mergedFmt (failAt 1000).dlp startPy.mem = .ok (m', some x) := e
  simp [PyCsvKind.extract, e]

/-- `C118_create_partial`, `C118_life_partial`, `C118_leak_false`, `C118_capsule_false`: their hypotheses can be met together. -/
example : ∃ src b, SoundHeap startPy.mem.heap ∧ SoundObjects startPy ∧ PythonAllocates (fun _ => true) startPy ∧
    PyCsvKind.merged.extract (failAt 1000) true startPy.mem = .ok (.inr src) ∧ src.err = false ∧ src.ptr .rho = some b := by
  obtain ⟨src, h1, h2, h3⟩ := merged_start
  obtain ⟨b, hb⟩ := Option.isSome_iff_exists.1 h3
  exact ⟨src, b, startMem_sound, startPy_objects, fun _ _ => rfl, h1, h2, hb⟩

/-- `Held` in `C118_life_partial`: a second reference to one attribute of an object with one array. -/
example : Held ⟨fun f => if f = .rho then some (.obj 1) else none, none⟩ (fun f => if f = .rho then 1 else 0)
    (startPy.put 1 (some ⟨1, some 0⟩)) (startPy.put 1 (some ⟨2, some 0⟩)) := by
  refine ⟨rfl, fun f i c h1 h2 => ?_⟩
  by_cases hf : f = .rho
  · simp only [hf, if_true, Option.some.injEq, PyRef.obj.injEq] at h1
    subst h1
    simp only [PySt.put, if_true, Option.some.injEq] at h2
    subst h2
    simp [PySt.put, hf]
  · simp [hf] at h1

/-- `C118_full`: nothing fails, any mission. -/
example (M : CsvKind) : SoundHeap startPy.mem.heap ∧ SoundObjects startPy ∧ ReadComplete M (failAt 1000) startPy.mem.calls ∧
    AllSucceed (failAt 1000).A (startPy.mem.calls + callsBeforeCopies M (failAt 1000)) (copies M (failAt 1000)) ∧
    (failAt 1000).chord = false ∧ (failAt 1000).interp = false :=
  ⟨startMem_sound, startPy_objects,
    ⟨failAt_main _ _, failAt_tau _, failAt_succeed (.inr (by rcases M with ⟨_ | _⟩ | _ <;> decide))⟩,
    failAt_succeed (.inr (by rcases M with ⟨_ | _⟩ | _ <;> decide)), rfl, rfl⟩

/-- `C118_fail_cassini_partial`: an allocation in the middle of the geometry file fails. -/
example : ¬ TauObjectFails (.cassini false) (failAt 7) startPy.mem.calls ∧ ¬ CopyFails (.cassini false) (failAt 7) startPy.mem.calls ∧
    ¬ (ReadComplete (.cassini false) (failAt 7) startPy.mem.calls ∧ (failAt 7).chord = false ∧ (failAt 7).interp = false) := by
  refine ⟨fun h => ?_, fun h => ?_, fun h => ?_⟩
  · exact absurd (h.2.2.1 7 (by decide)) (by decide)
  · exact absurd (h.1.2.2 7 (by decide)) (by decide)
  · exact absurd (h.1.2.2 7 (by decide)) (by decide)

/-- `C118_merged`: both cases occur. -/
example : (Usable (failAt 1000).dlp ∧ AllSucceed (failAt 1000).A startPy.mem.calls 23) ∧
    ¬ (Usable (failAt 5).dlp ∧ AllSucceed (failAt 5).A startPy.mem.calls 23) :=
  ⟨⟨⟨rfl, rfl, by decide⟩, failAt_succeed (.inr (by decide))⟩, fun h => absurd (h.2 5 (by decide)) (by decide)⟩

/-- `C118_reinit_false`: the same complete file twice. -/
example : ∃ src src' self st1, PyCsvKind.merged.extract (failAt 1000) true startPy.mem = .ok (.inr src) ∧ src.err = false ∧
    pyConstruct .merged (failAt 1000) (fun _ => true) true startPy = .ok (some self, st1) ∧
    PyCsvKind.merged.extract (failAt 1000) true st1.mem = .ok (.inr src') ∧ src'.err = false ∧
    ∀ f ∈ arrayAttributes, src'.ptr f = none → src.ptr f = none := by
  have H0 : Holds startMem.heap startMem.heap [] := ⟨List.nodup_nil, by simp, fun _ _ => rfl, by simp, startMem_sound⟩
  obtain ⟨m', o, e, -, H1, k, -, -, k3⟩ := extractObj_ok (failAt 1000).A mergedFmt_ok (failAt 1000).dlp H0
  obtain ⟨x, rfl, hx⟩ := k3 ⟨rfl, rfl, by decide⟩ (failAt_succeed (k := 1000) (.inr (by decide)))
  have e : extractObj (failAt 1000).A mergedFmt (failAt 1000).dlp startPy.mem = .ok (m', some x) := e
  have hex : PyCsvKind.merged.extract (failAt 1000) true startPy.mem =
      .ok (.inr ⟨m', x.addr, x.ptr, x.err, destroyObj mergedFmt (some x) m'⟩) := by simp [PyCsvKind.extract, e]
  have hc : m'.calls = 23 := (k x rfl hx).2.2.2.2.2.1
  obtain ⟨a, st', hi, hm, -⟩ := init_ok (P := fun _ => true) (self := ⟨fun _ => none, none⟩) startPy_objects (fun _ _ => rfl) hex hx
    (fun _ _ _ => .inl rfl) (.inl rfl) (.inl rfl)
  have hm : st'.mem = m' := hm
  obtain ⟨m2, o2, e2, -, -, k', -, -, k3'⟩ := extractObj_ok (failAt 1000).A mergedFmt_ok (failAt 1000).dlp H1
  obtain ⟨y, rfl, hy⟩ := k3' ⟨rfl, rfl, by decide⟩ (by rw [hc]; exact failAt_succeed (k := 1000) (.inr (by decide)))
  refine ⟨_, ⟨m2, y.addr, y.ptr, y.err, destroyObj mergedFmt (some y) m2⟩, ⟨a, some .none⟩, st', hex, hx, ?_, ?_, hy, ?_⟩
  · unfold pyConstruct
    rw [hi]; rfl
  · rw [hm]; simp [PyCsvKind.extract, e2]
  · intro f hf h0
    have := (k' y rfl hy).2.2.2.1 f ((mergedFmt_mem f).2 ((arrayAttributes_iff f).1 hf))
    have h0 : y.ptr f = none := h0
    rw [h0] at this; cases this

/-- `C118_noname_false`. -/
example : (failAt 1000).A startPy.mem.calls = true ∧ (failAt 1000).A (startPy.mem.calls + 1) = true := by decide

end Verif
