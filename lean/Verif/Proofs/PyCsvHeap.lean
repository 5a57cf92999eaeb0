import Verif.Model.PyCsvHeap
import Verif.Props.C43

/-! Lemmas about the Python CSV objects. -/
namespace Verif
open Spec

/-- Without an error there is no message. -/
def Quiet (s : CsvSt) : Prop := s.err = false → s.msg = none

theorem fail_quiet (A : Nat → Bool) (s : CsvSt) : Quiet (s.fail A) := fun h => by
  simp [CsvSt.fail] at h

theorem destroyMembers_same {M : CsvKind} {s s' : CsvSt} (h : csvDestroyMembers M s = .ok s') :
    s'.err = s.err ∧ s'.msg = s.msg := by
  unfold csvDestroyMembers at h
  simp only [Res.bind_eq_ok] at h
  obtain ⟨r, -, m2, -, m3, -, m4, -, m5, -, h⟩ := h
  cases h
  exact ⟨rfl, rfl⟩

theorem destroyMembers_quiet {M : CsvKind} {A : Nat → Bool} {s s' : CsvSt} (h : csvDestroyMembers M (s.fail A) = .ok s') :
    Quiet s' := by
  obtain ⟨h1, h2⟩ := destroyMembers_same h
  intro he
  rw [h1] at he
  rw [h2]
  exact fail_quiet A s he

theorem extractStep_quiet {A : Nat → Bool} {M : CsvKind} {f : CsvFmt} {put : CsvSt → Option CObj → CsvSt} {file : FileOut}
    {s s' : CsvSt} (hput : ∀ s o, (put s o).err = s.err ∧ (put s o).msg = s.msg) (hq : Quiet s)
    (h : extractStep A M f put file s = .ok s') : Quiet s' := by
  unfold extractStep at h
  split at h
  · cases h; exact hq
  · simp only [Res.bind_eq_ok] at h
    obtain ⟨r, -, h⟩ := h
    split at h
    · cases h; exact fail_quiet _ _
    · split at h
      · exact destroyMembers_quiet h
      · cases h
        intro he
        rw [(hput _ _).1] at he
        rw [(hput _ _).2]
        exact hq he

theorem stealStep_quiet {A : Nat → Bool} {M : CsvKind} {s s' : CsvSt} (hq : Quiet s) (h : stealStep A M s = .ok s') :
    Quiet s' := by
  unfold stealStep at h
  split at h
  · cases h; exact hq
  · split at h
    · cases h; exact fail_quiet _ _
    · split at h
      · cases h; exact fail_quiet _ _
      · simp only [] at h
        split at h
        · split at h
          · cases h; exact hq
          · cases h; exact fail_quiet _ _
        · cases h; exact hq

theorem csvMallocs_quiet {A : Nat → Bool} {M : CsvKind} : ∀ (vs : List CsvMem) {s s' : CsvSt}, Quiet s →
    csvMallocs A M vs s = .ok s' → Quiet s'
  | [], s, s', hq, h => by cases h; exact hq
  | v :: vs, s, s', hq, h => by
    unfold csvMallocs at h
    simp only [Res.bind_eq_ok] at h
    obtain ⟨-, -, h⟩ := h
    split at h
    · exact csvMallocs_quiet vs (by exact hq) h
    · exact destroyMembers_quiet h

theorem mallocStep_quiet {A : Nat → Bool} {M : CsvKind} {s s' : CsvSt} (hq : Quiet s) (h : mallocStep A M s = .ok s') :
    Quiet s' := by
  unfold mallocStep at h
  split at h
  · cases h; exact hq
  · split at h
    · cases h; exact fail_quiet _ _
    · exact csvMallocs_quiet _ hq h

theorem checkStep_quiet {A : Nat → Bool} {b : Bool} {s : CsvSt} (hq : Quiet s) : Quiet (checkStep A b s) := by
  unfold checkStep
  split
  · exact hq
  · split
    · exact fail_quiet _ _
    · exact hq

theorem finishStep_quiet {M : CsvKind} {s s' : CsvSt} (hq : Quiet s) (h : finishStep M s = .ok s') : Quiet s' := by
  unfold finishStep at h
  simp only [Res.bind_eq_ok] at h
  obtain ⟨m1, -, m2, -, m3, -, m4, -, m5, -, h⟩ := h
  cases h
  exact hq

theorem ownExtract_quiet {M : CsvKind} {W : CsvWorld} {m : Mem} {s : CsvSt} (h : ownExtract M W m = .ok (.inr s)) : Quiet s := by
  rw [ownExtract_eq] at h
  split at h
  · cases h
  · simp only [Res.bind_eq_ok] at h
    obtain ⟨s1, h1, s2, h2, s3, h3, s4, h4, s5, h5, s6, h6, s7, h7, h⟩ := h
    cases h
    have q1 := extractStep_quiet (put := putGeo) (fun _ _ => ⟨rfl, rfl⟩) (fun _ => rfl) h1
    have q2 : Quiet s2 := by
      unfold calStep at h2
      split at h2
      · cases h2; exact q1
      · exact extractStep_quiet (put := putCal) (fun _ _ => ⟨rfl, rfl⟩) q1 h2
    have q3 := extractStep_quiet (put := putDlp) (fun _ _ => ⟨rfl, rfl⟩) q2 h3
    have q4 : Quiet s4 := by
      unfold tauStep at h4
      split at h4
      · cases h4; exact q3
      · exact extractStep_quiet (put := putTau) (fun _ _ => ⟨rfl, rfl⟩) q3 h4
    exact finishStep_quiet (checkStep_quiet (checkStep_quiet (mallocStep_quiet (stealStep_quiet q4 h5) h6))) h7

/-- What a returned object without error owns. -/
theorem ownExtract_fin {M : CsvKind} {W : CsvWorld} {m : Mem} {s : CsvSt} (hs : SoundHeap m.heap)
    (h : ownExtract M W m = .ok (.inr s)) (he : s.err = false) : Fin m.heap s := by
  have hA : W.A m.calls = true := by
    cases hA : W.A m.calls
    · rw [ownExtract_eq] at h
      simp only [Mem.malloc, hA, Bool.false_eq_true, if_false] at h
      cases h
    · rfl
  obtain ⟨m1, a, s0, s', e, ex, k1, k2, k3, -⟩ := read_cases (M := M) hs hA
  rw [ex] at h
  have herr : s'.err = true → s.err = true := by
    intro hq
    rw [stealStep_err _ _ hq, Res.ok_bind, mallocStep_err _ _ hq, Res.ok_bind, check_err _ _ hq, check_err _ _ hq] at h
    unfold finishStep at h
    simp only [Res.bind_eq_ok] at h
    obtain ⟨s7, ⟨m1, -, m2, -, m3, -, m4, -, m5, -, h7⟩, h⟩ := h
    cases h7; cases h
    exact hq
  have h1 : ¬ TauObjectFails M W m.calls := fun ht => by
    obtain ⟨x, m', -, -, -, e4⟩ := k2 ht
    have := herr (by rw [e4]; rfl)
    rw [he] at this; cases this
  obtain ⟨S, ht⟩ := k1 h1
  cases hq : s'.err
  · obtain ⟨r1, r2⟩ := rest_cases hA S hq (ht hq)
    by_cases h2 : AllSucceed W.A m.calls (callsBeforeCopies M W) → AllSucceed W.A (m.calls + callsBeforeCopies M W) (copies M W)
    · obtain ⟨t, e1, F, -⟩ := r1 h2
      rw [e1] at h
      cases h
      exact F
    · rw [Classical.not_imp] at h2
      rw [r2 h2.1 h2.2] at h; cases h
  · have := herr hq
    rw [he] at this; cases this

theorem pySteal_perm : csvFrees.Perm pySteal := by decide
theorem pySteal_nodup : pySteal.Nodup := by decide
theorem pyFrees_nodup : pyFrees.Nodup := by decide
theorem pyFrees_perm : pyFrees.Perm (.history :: pySteal) := by decide
theorem mergedFmt_ok : FmtOk mergedFmt := ⟨by decide, by decide, by decide⟩
theorem mergedFmt_perm : mergedFmt.frees.Perm pySteal := by decide
theorem mergedFmt_mem (f : CsvMem) : f ∈ mergedFmt.allocs ↔ f ∈ pySteal := by cases f <;> decide

/-- What the structure of C owns. -/
structure SrcOk (h0 : Heap Unit) (src : CSrc) : Prop where
  supp : ∀ f, f ∉ pySteal → src.ptr f = none
  H : Holds h0 src.mem.heap (pySteal.filterMap src.ptr ++ [src.self])

theorem extract_src {K : PyCsvKind} {W : CsvWorld} {named : Bool} {m : Mem} {src : CSrc} (hs : SoundHeap m.heap)
    (h : K.extract W named m = .ok (.inr src)) (he : src.err = false) : SrcOk m.heap src := by
  unfold PyCsvKind.extract at h
  split at h
  · cases h
  · cases K with
    | csv M =>
      simp only [Res.bind_eq_ok] at h
      obtain ⟨r, hr, h⟩ := h
      cases r with
      | inl m => cases h
      | inr s =>
        cases h
        have F := ownExtract_fin hs hr he
        have hm := ownExtract_quiet hr he
        refine ⟨fun f hf => F.supp f fun h => hf (pySteal_perm.mem_iff.1 h), ?_⟩
        have H := F.H
        rw [hm] at H
        exact H.perm ((pySteal_perm.filterMap _).append_right _)
    | merged =>
      have H0 : Holds m.heap m.heap [] := ⟨List.nodup_nil, by simp, fun _ _ => rfl, by simp, hs⟩
      obtain ⟨m', o, e, -, H, k, -⟩ := extractObj_ok W.A mergedFmt_ok W.dlp H0
      simp only [e, Res.ok_bind] at h
      cases o with
      | none => cases h
      | some x =>
        cases h
        obtain ⟨-, -, k3, -, k5, -⟩ := k x rfl he
        refine ⟨fun f hf => k5 f fun h => hf ((mergedFmt_mem f).1 h), ?_⟩
        simp only [objOwn, k3, Option.toList_none, List.append_nil, List.nil_append] at H
        exact H.perm (by simpa using (mergedFmt_perm.filterMap x.ptr).append_right [x.addr])

variable {α : Type} [DecidableEq α]

omit [DecidableEq α] in
theorem filterMap_cons_any (p : α → Option Nat) (f : α) (fs : List α) : (f :: fs).filterMap p = (p f).toList ++ fs.filterMap p := by
  rw [List.filterMap_cons]
  cases p f <;> rfl

/-- The state after making the arrays. -/
structure Arrays (ptr : α → Option Nat) (fs : List α) (a : α → Option PyRef) (st : PySt)
    (a' : α → Option PyRef) (st' : PySt) : Prop where
  mem : st'.mem = st.mem
  exc : st'.exc = st.exc
  calls : st.calls ≤ st'.calls
  next : st.next ≤ st'.next
  fresh : ∀ i, st'.next ≤ i → st'.objs i = none
  old : ∀ i, i < st.next → st'.objs i = st.objs i
  other : ∀ f, f ∉ fs → a' f = a f
  nones : ∀ f ∈ fs, ptr f = none → a' f = some .none
  arrs : ∀ f ∈ fs, ∀ b, ptr f = some b →
    ∃ i, st.next ≤ i ∧ i < st'.next ∧ a' f = some (.obj i) ∧ st'.objs i = some ⟨1, some b⟩
  inj : ∀ f ∈ fs, ∀ g ∈ fs, ∀ i, a' f = some (.obj i) → a' g = some (.obj i) → f = g
  only : ∀ i c, st.next ≤ i → st'.objs i = some c → ∃ f ∈ fs, a' f = some (.obj i) ∧ c.base = ptr f

theorem createArrays_ok {P : Nat → Bool} {ptr : α → Option Nat} : ∀ (fs : List α) (a : α → Option PyRef) (st : PySt),
    fs.Nodup → (∀ i, st.calls ≤ i → P i = true) → (∀ i, st.next ≤ i → st.objs i = none) →
    (∀ f ∈ fs, ptr f = none → a f = none ∨ a f = some .none) →
    ∃ a' st', createArrays P ptr fs a st = .ok (a', st') ∧ Arrays ptr fs a st a' st'
  | [], a, st, _, _, hf, _ =>
    ⟨a, st, rfl, rfl, rfl, le_refl _, le_refl _, hf, fun _ _ => rfl, fun _ _ => rfl, by simp, by simp, by simp,
      fun i c hi hc => by rw [hf i hi] at hc; cases hc⟩
  | f :: fs, a, st, hn, hP, hf, ha => by
    obtain ⟨n1, n2⟩ := List.nodup_cons.1 hn
    have hne : ∀ g ∈ fs, g ≠ f := fun g hg e => n1 (e ▸ hg)
    cases hb : ptr f with
    | none =>
      have e1 : createArray P (ptr f) f a st = .ok (setAttr a f (some .none), st) := by
        rw [hb]
        rcases ha f List.mem_cons_self hb with h | h <;> simp [createArray, h, PySt.decref]
      obtain ⟨a', st', e2, Q⟩ := createArrays_ok (P := P) (ptr := ptr) fs (setAttr a f (some .none)) st n2 hP hf
        (fun g hg h0 => by
          have := ha g (List.mem_cons_of_mem _ hg) h0
          simpa only [setAttr, if_neg (hne g hg)] using this)
      have hf' : a' f = some .none := by rw [Q.other f n1]; simp [setAttr]
      refine ⟨a', st', by simp only [createArrays, e1, Res.ok_bind, e2], Q.mem, Q.exc, Q.calls, Q.next, Q.fresh, Q.old, ?_, ?_, ?_, ?_, ?_⟩
      · intro g hg
        rw [List.mem_cons, not_or] at hg
        rw [Q.other g hg.2]; simp [setAttr, hg.1]
      · intro g hg h0
        rcases List.mem_cons.1 hg with rfl | hg
        · exact hf'
        · exact Q.nones g hg h0
      · intro g hg b h0
        rcases List.mem_cons.1 hg with rfl | hg
        · rw [hb] at h0; cases h0
        · exact Q.arrs g hg b h0
      · intro g hg k hk i h1 h2
        rcases List.mem_cons.1 hg with rfl | hg
        · rw [hf'] at h1; cases h1
        · rcases List.mem_cons.1 hk with rfl | hk
          · rw [hf'] at h2; cases h2
          · exact Q.inj g hg k hk i h1 h2
      · intro i c hi hc
        obtain ⟨g, hg, h1, h2⟩ := Q.only i c hi hc
        exact ⟨g, List.mem_cons_of_mem _ hg, h1, h2⟩
    | some b =>
      obtain ⟨st1, hst1⟩ : ∃ s : PySt, s = { ({ st with calls := st.calls + 2 } : PySt).put st.next (some ⟨1, some b⟩) with next := st.next + 1 } :=
        ⟨_, rfl⟩
      have e1 : createArray P (ptr f) f a st = .ok (setAttr a f (some (.obj st.next)), st1) := by
        rw [hb, hst1]
        simp [createArray, hP st.calls (le_refl _), hP (st.calls + 1) (by omega), PySt.fresh]
      have s1 : st1.mem = st.mem := by rw [hst1]; rfl
      have s2 : st1.exc = st.exc := by rw [hst1]; rfl
      have s3 : st1.calls = st.calls + 2 := by rw [hst1]; rfl
      have s4 : st1.next = st.next + 1 := by rw [hst1]
      have s5 : ∀ i, st1.objs i = if i = st.next then some ⟨1, some b⟩ else st.objs i := by intro i; rw [hst1]; rfl
      obtain ⟨a', st', e2, Q⟩ := createArrays_ok (P := P) (ptr := ptr) fs (setAttr a f (some (.obj st.next))) st1 n2
        (fun i hi => hP i (by omega)) (fun i hi => by rw [s5, if_neg (by omega)]; exact hf i (by omega))
        (fun g hg h0 => by
          have := ha g (List.mem_cons_of_mem _ hg) h0
          simpa only [setAttr, if_neg (hne g hg)] using this)
      have hf' : a' f = some (.obj st.next) := by rw [Q.other f n1]; simp [setAttr]
      have hx := Q.next
      have hnew : ∀ g ∈ fs, a' g ≠ some (.obj st.next) := by
        intro g hg hc
        cases h0 : ptr g with
        | none => rw [Q.nones g hg h0] at hc; cases hc
        | some c =>
          obtain ⟨i, i1, -, i3, -⟩ := Q.arrs g hg c h0
          rw [i3] at hc
          cases hc
          omega
      refine ⟨a', st', by simp only [createArrays, e1, Res.ok_bind, e2], by rw [Q.mem, s1], by rw [Q.exc, s2], by have := Q.calls; omega,
        by omega, Q.fresh, ?_, ?_, ?_, ?_, ?_, ?_⟩
      · intro i hi
        rw [Q.old i (by omega), s5, if_neg (by omega)]
      · intro g hg
        rw [List.mem_cons, not_or] at hg
        rw [Q.other g hg.2]; simp [setAttr, hg.1]
      · intro g hg h0
        rcases List.mem_cons.1 hg with rfl | hg
        · rw [hb] at h0; cases h0
        · exact Q.nones g hg h0
      · intro g hg c h0
        rcases List.mem_cons.1 hg with rfl | hg
        · rw [hb] at h0; cases h0
          exact ⟨st.next, le_refl _, by omega, hf', by rw [Q.old _ (by omega), s5, if_pos rfl]⟩
        · obtain ⟨i, i1, i2, i3, i4⟩ := Q.arrs g hg c h0
          exact ⟨i, by omega, i2, i3, i4⟩
      · intro g hg k hk i h1 h2
        rcases List.mem_cons.1 hg with rfl | hg'
        · rcases List.mem_cons.1 hk with rfl | hk
          · rfl
          · rw [hf'] at h1; cases h1
            exact absurd h2 (hnew k hk)
        · rcases List.mem_cons.1 hk with hkf | hk'
          · rw [hkf, hf'] at h2; cases h2
            exact absurd h1 (hnew g hg')
          · exact Q.inj g hg' k hk' i h1 h2
      · intro i c hi hc
        rcases Nat.lt_or_ge i st1.next with hlt | hge
        · have hin : i = st.next := by omega
          subst hin
          rw [Q.old _ hlt, s5, if_pos rfl] at hc
          cases hc
          exact ⟨f, List.mem_cons_self, hf', hb.symm⟩
        · obtain ⟨g, hg, h1, h2⟩ := Q.only i c hge hc
          exact ⟨g, List.mem_cons_of_mem _ hg, h1, h2⟩

/-- The block that goes when the attribute is released. -/
def dueBlock (a : α → Option PyRef) (st : PySt) (f : α) : Option Nat :=
  match a f with
  | some (.obj i) => match st.objs i with
    | some c => if c.refs ≤ 1 then c.base else none
    | none => none
  | _ => none

/-- An object after one release. -/
def released : PyCell → Option PyCell := fun c => if c.refs ≤ 1 then none else some { c with refs := c.refs - 1 }

omit [DecidableEq α] in
theorem filterMap_same {p q : α → Option Nat} : ∀ {fs : List α}, (∀ f ∈ fs, p f = q f) → fs.filterMap p = fs.filterMap q
  | [], _ => rfl
  | f :: fs, h => by
    rw [filterMap_cons_any, filterMap_cons_any, h f List.mem_cons_self, filterMap_same fun g hg => h g (List.mem_cons_of_mem _ hg)]

theorem decrefs_ok {h0 : Heap Unit} {a : α → Option PyRef} {l : List Nat} : ∀ (fs : List α) (st : PySt), fs.Nodup →
    (∀ f ∈ fs, ∀ i, a f = some (.obj i) → st.objs i ≠ none) →
    (∀ f ∈ fs, ∀ g ∈ fs, ∀ i, a f = some (.obj i) → a g = some (.obj i) → f = g) →
    Holds h0 st.mem.heap (fs.filterMap (dueBlock a st) ++ l) →
    ∃ st', decrefs a fs st = .ok st' ∧ Holds h0 st'.mem.heap l ∧ st'.exc = st.exc ∧
      (∀ i, (∀ f ∈ fs, a f ≠ some (.obj i)) → st'.objs i = st.objs i) ∧
      (∀ f ∈ fs, ∀ i, a f = some (.obj i) → st'.objs i = (st.objs i).bind released)
  | [], st, _, _, _, H => ⟨st, rfl, H, rfl, fun _ _ => rfl, by simp⟩
  | f :: fs, st, hn, hl, hi, H => by
    obtain ⟨n1, n2⟩ := List.nodup_cons.1 hn
    have hone : ∃ st1, st.decref (a f) = .ok st1 ∧ st1.exc = st.exc ∧ Holds h0 st1.mem.heap (fs.filterMap (dueBlock a st) ++ l) ∧
        (∀ i, a f ≠ some (.obj i) → st1.objs i = st.objs i) ∧
        (∀ i, a f = some (.obj i) → st1.objs i = (st.objs i).bind released) := by
      rw [filterMap_cons_any, List.append_assoc] at H
      cases hf : a f with
      | none =>
        rw [show dueBlock a st f = none by simp [dueBlock, hf]] at H
        exact ⟨st, rfl, rfl, H, fun _ _ => rfl, by simp⟩
      | some r =>
        cases r with
        | none =>
          rw [show dueBlock a st f = none by simp [dueBlock, hf]] at H
          exact ⟨st, rfl, rfl, H, fun _ _ => rfl, by simp⟩
        | obj i =>
          cases hc : st.objs i with
          | none => exact absurd hc (hl f List.mem_cons_self i hf)
          | some c =>
            by_cases hr : c.refs ≤ 1
            · rw [show dueBlock a st f = c.base by simp [dueBlock, hf, hc, hr]] at H
              obtain ⟨m', e, H', -⟩ := H.freeOpt
              refine ⟨{ st.put i none with mem := m' }, by simp only [PySt.decref, hc, if_pos hr, e, Res.ok_bind], rfl, H', ?_, ?_⟩
              · intro j hj
                have : j ≠ i := fun e => hj (by rw [e])
                simp [PySt.put, this]
              · intro j hj
                cases hj
                simp [PySt.put, hc, released, hr]
            · rw [show dueBlock a st f = none by simp [dueBlock, hf, hc, hr]] at H
              refine ⟨st.put i (some { c with refs := c.refs - 1 }), by simp only [PySt.decref, hc, if_neg hr], rfl, H, ?_, ?_⟩
              · intro j hj
                have : j ≠ i := fun e => hj (by rw [e])
                simp [PySt.put, this]
              · intro j hj
                cases hj
                simp [PySt.put, hc, released, hr]
    obtain ⟨st1, e1, x1, H1, o1, o2⟩ := hone
    have hkeep : ∀ g ∈ fs, ∀ i, a g = some (.obj i) → st1.objs i = st.objs i := by
      intro g hg i hgi
      refine o1 i fun h => ?_
      have := hi f List.mem_cons_self g (List.mem_cons_of_mem _ hg) i h hgi
      exact n1 (this ▸ hg)
    have hdue : fs.filterMap (dueBlock a st1) = fs.filterMap (dueBlock a st) := by
      refine filterMap_same fun g hg => ?_
      unfold dueBlock
      cases hgi : a g with
      | none => rfl
      | some r =>
        cases r with
        | none => rfl
        | obj i => simp only [hkeep g hg i hgi]
    obtain ⟨st', e2, H2, x2, p1, p2⟩ := decrefs_ok (h0 := h0) (a := a) (l := l) fs st1 n2
      (fun g hg i hgi => by rw [hkeep g hg i hgi]; exact hl g (List.mem_cons_of_mem _ hg) i hgi)
      (fun g hg k hk => hi g (List.mem_cons_of_mem _ hg) k (List.mem_cons_of_mem _ hk)) (by rw [hdue]; exact H1)
    refine ⟨st', by simp only [decrefs, e1, Res.ok_bind, e2], H2, by rw [x2, x1], ?_, ?_⟩
    · intro i h
      rw [p1 i fun g hg => h g (List.mem_cons_of_mem _ hg), o1 i (h f List.mem_cons_self)]
    · intro g hg i hgi
      rcases List.mem_cons.1 hg with rfl | hg
      · rw [p1 i (fun k hk hki => by
          have := hi g List.mem_cons_self k (List.mem_cons_of_mem _ hk) i hgi hki
          exact n1 (this ▸ hk)), o2 i hgi]
      · rw [p2 g hg i hgi, hkeep g hg i hgi]

end Verif
