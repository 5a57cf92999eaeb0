import Verif.Model.CsvHeap
import Verif.Proofs.Guard

/-! Lemmas about the ownership of the CSV objects. -/
namespace Verif

/-- `l` is the list of the live blocks that were not live in `h0`, each once. -/
structure Holds (h0 h : Heap Unit) (l : List Nat) : Prop where
  nodup : l.Nodup
  live : ∀ p ∈ l, h.blk p = some ()
  rest : ∀ p, p ∉ l → h.blk p = h0.blk p
  old : ∀ p ∈ l, h0.blk p = none
  fresh : ∀ p, h.next ≤ p → h.blk p = none

theorem Holds.perm {h0 h : Heap Unit} {l l' : List Nat} (H : Holds h0 h l) (e : l.Perm l') : Holds h0 h l' where
  nodup := e.nodup_iff.1 H.nodup
  live p hp := H.live p (e.mem_iff.2 hp)
  rest p hp := H.rest p fun h => hp (e.mem_iff.1 h)
  old p hp := H.old p (e.mem_iff.2 hp)
  fresh := H.fresh

theorem Holds.malloc {h0 : Heap Unit} {m : Mem} {l : List Nat} (H : Holds h0 m.heap l) (A : Nat → Bool) :
    (A m.calls = true ∧ ∃ p m', m.malloc A = (some p, m') ∧ Holds h0 m'.heap (p :: l) ∧ m'.calls = m.calls + 1) ∨
    (A m.calls = false ∧ ∃ m', m.malloc A = (none, m') ∧ m'.heap = m.heap ∧ m'.calls = m.calls + 1) := by
  unfold Mem.malloc
  cases hA : A m.calls
  · exact .inr ⟨rfl, _, rfl, rfl, rfl⟩
  · have hn : m.heap.next ∉ l := fun h => by
      have := H.live _ h
      rw [H.fresh _ (le_refl _)] at this; cases this
    refine .inl ⟨rfl, _, _, rfl, ⟨List.nodup_cons.2 ⟨hn, H.nodup⟩, ?_, ?_, ?_, ?_⟩, rfl⟩
    · intro p hp
      rcases List.mem_cons.1 hp with rfl | hp
      · simp [Heap.alloc]
      · simp only [Heap.alloc]
        split
        · rfl
        · exact H.live p hp
    · intro p hp
      rw [List.mem_cons, not_or] at hp
      simp only [Heap.alloc, if_neg hp.1]
      exact H.rest p hp.2
    · intro p hp
      rcases List.mem_cons.1 hp with rfl | hp
      · rw [← H.rest _ hn, H.fresh _ (le_refl _)]
      · exact H.old p hp
    · intro p hp
      simp only [Heap.alloc] at hp ⊢
      rw [if_neg (by omega)]
      exact H.fresh p (by omega)

theorem Holds.free {h0 : Heap Unit} {m : Mem} {l : List Nat} {p : Nat} (H : Holds h0 m.heap (p :: l)) :
    ∃ m', m.free (some p) = .ok m' ∧ Holds h0 m'.heap l ∧ m'.calls = m.calls := by
  have hp := H.live p List.mem_cons_self
  obtain ⟨h1, h2⟩ := List.nodup_cons.1 H.nodup
  refine ⟨⟨m.heap.erase p, m.calls⟩, by simp [Mem.free, Heap.free, hp], ⟨h2, ?_, ?_, ?_, ?_⟩, rfl⟩
  · intro q hq
    have : q ≠ p := fun e => h1 (e ▸ hq)
    simp only [Heap.erase, if_neg this]
    exact H.live q (List.mem_cons_of_mem _ hq)
  · intro q hq
    simp only [Heap.erase]
    split
    · rename_i e; subst e; exact (H.old q List.mem_cons_self).symm
    · rename_i e
      exact H.rest q (by simp [e, hq])
  · intro q hq; exact H.old q (List.mem_cons_of_mem _ hq)
  · intro q hq
    simp only [Heap.erase]
    split
    · rfl
    · exact H.fresh q hq

theorem Holds.freeOpt {h0 : Heap Unit} {m : Mem} {l : List Nat} {q : Option Nat} (H : Holds h0 m.heap (q.toList ++ l)) :
    ∃ m', m.free q = .ok m' ∧ Holds h0 m'.heap l ∧ m'.calls = m.calls := by
  cases q with
  | none => exact ⟨m, rfl, H, rfl⟩
  | some p => exact H.free

theorem Holds.get {h0 h : Heap Unit} {l : List Nat} {p : Nat} (H : Holds h0 h l) (hp : p ∈ l) :
    h.get (some p) = .ok () := by
  simp only [Heap.get, H.live p hp]

theorem setMem_same (p : CsvMem → Option Nat) (f : CsvMem) (v : Option Nat) : setMem p f v f = v := by simp [setMem]
theorem setMem_ne (p : CsvMem → Option Nat) {f g : CsvMem} (v : Option Nat) (h : g ≠ f) : setMem p f v g = p g := by
  simp [setMem, h]

theorem filterMap_setMem (p : CsvMem → Option Nat) {f : CsvMem} (v : Option Nat) {fs : List CsvMem} (h : f ∉ fs) :
    fs.filterMap (setMem p f v) = fs.filterMap p := by
  induction fs with
  | nil => rfl
  | cons g gs ih =>
    rw [List.mem_cons, not_or] at h
    simp only [List.filterMap_cons, ih h.2, setMem_ne p v (Ne.symm h.1)]

theorem filterMap_cons_opt (p : CsvMem → Option Nat) (f : CsvMem) (fs : List CsvMem) :
    (f :: fs).filterMap p = (p f).toList ++ fs.filterMap p := by
  cases h : p f <;> simp [List.filterMap_cons, h]

/-- Storing a new pointer in an empty member adds it to the list. -/
theorem filterMap_setMem_perm (p : CsvMem → Option Nat) {f : CsvMem} (a : Nat) {fs : List CsvMem} (hm : f ∈ fs)
    (hn : fs.Nodup) (he : p f = none) : (fs.filterMap (setMem p f (some a))).Perm (a :: fs.filterMap p) := by
  induction fs with
  | nil => cases hm
  | cons g gs ih =>
    obtain ⟨h1, h2⟩ := List.nodup_cons.1 hn
    rw [filterMap_cons_opt, filterMap_cons_opt]
    by_cases e : g = f
    · subst e
      rw [setMem_same, he, filterMap_setMem p _ h1]
      exact List.Perm.refl _
    · have hm' : f ∈ gs := by
        rcases List.mem_cons.1 hm with h | h
        · exact absurd h.symm e
        · exact h
      rw [setMem_ne p _ e]
      exact ((ih hm' h2).append_left _).trans List.perm_middle

theorem freeMems_ok {h0 : Heap Unit} (addr : Nat) : ∀ (fs : List CsvMem) (m : Mem) (p : CsvMem → Option Nat) (l : List Nat),
    fs.Nodup → addr ∈ l → Holds h0 m.heap (fs.filterMap p ++ l) →
    ∃ m', freeMems addr fs (m, p) = .ok (m', fun f => if f ∈ fs then none else p f) ∧ Holds h0 m'.heap l ∧
      m'.calls = m.calls
  | [], m, p, l, _, _, H => ⟨m, by simp [freeMems], H, rfl⟩
  | f :: fs, m, p, l, hn, ha, H => by
    obtain ⟨h1, h2⟩ := List.nodup_cons.1 hn
    rw [filterMap_cons_opt, List.append_assoc] at H
    obtain ⟨m1, e1, H1, c1⟩ := H.freeOpt
    obtain ⟨m2, e2, H2, c2⟩ := freeMems_ok addr fs m1 (setMem p f none) l h2 ha (by rw [filterMap_setMem p _ h1]; exact H1)
    refine ⟨m2, ?_, H2, by omega⟩
    rw [freeMems, H.get (List.mem_append_right _ (List.mem_append_right _ ha)), Res.ok_bind, e1, Res.ok_bind, e2]
    congr 2
    funext g
    by_cases hg : g = f
    · subst hg; simp [setMem]
    · simp [setMem, hg]

/-- The blocks of a sub-object. -/
def objOwn (f : CsvFmt) : Option CObj → List Nat
  | none => []
  | some o => f.frees.filterMap o.ptr ++ (o.msg.toList ++ [o.addr])

/-- Facts about the lists of a format. -/
structure FmtOk (f : CsvFmt) : Prop where
  nodupA : f.allocs.Nodup
  nodupF : f.frees.Nodup
  sub : ∀ v ∈ f.allocs, v ∈ f.frees

theorem geoFmt_ok (d : Bool) : FmtOk (geoFmt d) := by cases d <;> exact ⟨by decide, by decide, by decide⟩
theorem calFmt_ok : FmtOk calFmt := ⟨by decide, by decide, by decide⟩
theorem dlpFmt_ok (d : Bool) : FmtOk (dlpFmt d) := by cases d <;> exact ⟨by decide, by decide, by decide⟩
theorem tauFmt_ok (d : Bool) : FmtOk (tauFmt d) := by cases d <;> exact ⟨by decide, by decide, by decide⟩
theorem uranusDlpFmt_ok : FmtOk uranusDlpFmt := ⟨by decide, by decide, by decide⟩
theorem CsvKind.geo_ok (M : CsvKind) : FmtOk M.geo := by cases M <;> exact geoFmt_ok _
theorem CsvKind.dlp_ok (M : CsvKind) : FmtOk M.dlp := by
  cases M
  · exact dlpFmt_ok _
  · exact uranusDlpFmt_ok
theorem CsvKind.tau_ok (M : CsvKind) : FmtOk M.tau := by cases M <;> exact tauFmt_ok _

/-- Messages on the heap only where they are released. -/
def MsgOk (f : CsvFmt) (o : Option CObj) : Prop := ∀ x, o = some x → f.heapMsg = false → x.msg = none

theorem objMsg_ok {h0 : Heap Unit} {m : Mem} {l : List Nat} (A : Nat → Bool) (b : Bool) (H : Holds h0 m.heap l) :
    ∃ q m', objMsg A b m = (q, m') ∧ Holds h0 m'.heap (q.toList ++ l) ∧ (b = false → q = none) := by
  unfold objMsg
  cases b
  · exact ⟨none, m, rfl, H, fun _ => rfl⟩
  · simp only [if_true]
    rcases H.malloc A with ⟨-, p, m', e, H', -⟩ | ⟨-, m', e, hh, -⟩
    · exact ⟨some p, m', e, H', fun h => by cases h⟩
    · exact ⟨none, m', e, by rw [hh]; exact H, fun _ => rfl⟩

theorem mallocMems_ok {h0 : Heap Unit} (A : Nat → Bool) {f : CsvFmt} (hf : FmtOk f) :
    ∀ (vs : List CsvMem) (m : Mem) (o : CObj) (l : List Nat), vs.Nodup → (∀ v ∈ vs, v ∈ f.frees) →
    (∀ v ∈ vs, o.ptr v = none) → o.err = false → o.msg = none →
    Holds h0 m.heap (f.frees.filterMap o.ptr ++ (o.addr :: l)) →
    ∃ m' o', mallocMems A f vs m o = .ok (m', o') ∧ o'.addr = o.addr ∧ o'.n = o.n ∧ MsgOk f (some o') ∧
      Holds h0 m'.heap (objOwn f (some o') ++ l) ∧
      (o'.err = false → o'.msg = none ∧ (∀ v ∈ vs, (o'.ptr v).isSome) ∧ (∀ v, v ∉ vs → o'.ptr v = o.ptr v) ∧
        m'.calls = m.calls + vs.length ∧ ∀ i, i < vs.length → A (m.calls + i) = true) ∧
      ((∀ i, i < vs.length → A (m.calls + i) = true) → o'.err = false)
  | [], m, o, l, _, _, _, he, hm, H => by
    refine ⟨m, o, rfl, rfl, rfl, ?_, ?_, fun _ => ⟨hm, by simp, fun _ _ => rfl, rfl, by simp⟩, fun _ => he⟩
    · intro x hx _; cases hx; exact hm
    · simp only [objOwn, hm]
      simpa using H
  | v :: vs, m, o, l, hn, hs, hp, he, hm, H => by
    obtain ⟨h1, h2⟩ := List.nodup_cons.1 hn
    have hget := H.get (p := o.addr) (by simp)
    rcases H.malloc A with ⟨hA, p, m', e, H', c'⟩ | ⟨hA, m', e, hh, c'⟩
    · have H2 : Holds h0 m'.heap (f.frees.filterMap (setMem o.ptr v (some p)) ++ (o.addr :: l)) :=
        H'.perm (((filterMap_setMem_perm o.ptr p (hs v List.mem_cons_self) hf.nodupF
          (hp v List.mem_cons_self)).append_right _).symm)
      obtain ⟨m2, o2, e2, k1, k2, k3, k4, k5, k6⟩ := mallocMems_ok A hf vs m' { o with ptr := setMem o.ptr v (some p) } l h2
        (fun x hx => hs x (List.mem_cons_of_mem _ hx))
        (fun x hx => by
          have : x ≠ v := fun e => h1 (e ▸ hx)
          show setMem o.ptr v (some p) x = none
          rw [setMem_ne _ _ this]; exact hp x (List.mem_cons_of_mem _ hx)) he hm H2
      refine ⟨m2, o2, ?_, k1, k2, k3, k4, fun ho => ?_, fun hall => k6 fun i hi => ?_⟩
      · rw [mallocMems, hget, Res.ok_bind, e]; exact e2
      · obtain ⟨q1, q2, q3, q4, q5⟩ := k5 ho
        refine ⟨q1, fun x hx => ?_, fun x hx => ?_, by rw [q4, c', List.length_cons]; omega, fun i hi => ?_⟩
        · rcases List.mem_cons.1 hx with rfl | hx
          · rw [q3 x h1]
            show (setMem o.ptr x (some p) x).isSome
            rw [setMem_same]; rfl
          · exact q2 x hx
        · rw [List.mem_cons, not_or] at hx
          rw [q3 x hx.2]
          exact setMem_ne _ _ hx.1
        · rcases Nat.eq_zero_or_pos i with rfl | hi0
          · exact hA
          · have := q5 (i - 1) (by rw [List.length_cons] at hi; omega)
            rw [c', show m.calls + 1 + (i - 1) = m.calls + i by omega] at this
            exact this
      · have := hall (i + 1) (by rw [List.length_cons]; omega)
        rw [c', show m.calls + 1 + i = m.calls + (i + 1) by omega]
        exact this
    · rw [← hh] at H
      obtain ⟨q, m2, e2, H2, hq⟩ := objMsg_ok A f.heapMsg H
      have hv : setMem o.ptr v none = o.ptr := by
        funext g
        by_cases hg : g = v
        · subst hg; rw [setMem_same, hp g List.mem_cons_self]
        · exact setMem_ne _ _ hg
      have H3 : Holds h0 m2.heap (f.frees.filterMap (setMem o.ptr v none) ++ (q.toList ++ (o.addr :: l))) := by
        rw [hv]
        refine H2.perm ?_
        rw [← List.append_assoc, ← List.append_assoc]
        exact List.perm_append_comm.append_right _
      obtain ⟨m3, e3, H4, c3⟩ := freeMems_ok o.addr f.frees m2 _ _ hf.nodupF (by simp) H3
      refine ⟨m3, { o with
        ptr := fun x => if x ∈ f.frees then none else setMem o.ptr v none x
        err := true
        msg := q }, ?_, rfl, rfl, ?_, ?_, (by intro h; cases h), fun hall => ?_⟩
      · rw [mallocMems, hget, Res.ok_bind, e]
        simp only [e2]
        rw [e3, Res.ok_bind]
      · intro x hx hb; cases hx; exact hq hb
      · have : f.frees.filterMap (fun x => if x ∈ f.frees then none else setMem o.ptr v none x) = [] := by
          rw [List.filterMap_eq_nil_iff]
          intro a ha
          rw [if_pos ha]
        simp only [objOwn, this, List.nil_append, List.append_assoc]
        exact H4
      · have := hall 0 (by simp)
        rw [Nat.add_zero, hA] at this; cases this

/-- A file that is accepted. -/
def fileGood (f : FileOut) : Prop := f.opens = true ∧ f.cols = true ∧ f.rows ≠ 0

theorem extractObj_ok {h0 : Heap Unit} (A : Nat → Bool) {f : CsvFmt} (hf : FmtOk f) (file : FileOut) {m : Mem}
    {l : List Nat} (H : Holds h0 m.heap l) :
    ∃ m' o, extractObj A f file m = .ok (m', o) ∧ MsgOk f o ∧ Holds h0 m'.heap (objOwn f o ++ l) ∧
      (∀ x, o = some x → x.err = false → fileGood file ∧ x.n = file.rows ∧ x.msg = none ∧
        (∀ v ∈ f.allocs, (x.ptr v).isSome) ∧ (∀ v, v ∉ f.allocs → x.ptr v = none) ∧
        m'.calls = m.calls + (1 + f.allocs.length) ∧ ∀ i, i < 1 + f.allocs.length → A (m.calls + i) = true) ∧
      (o = none → A m.calls = false) ∧ (A m.calls = false → o = none ∧ m'.heap = m.heap) ∧
      (fileGood file → (∀ i, i < 1 + f.allocs.length → A (m.calls + i) = true) → ∃ x, o = some x ∧ x.err = false) := by
  rcases H.malloc A with ⟨hA, a, m1, e, H1, c1⟩ | ⟨hA, m1, e, hh, c1⟩
  · by_cases hg : fileGood file
    · obtain ⟨m2, o2, e2, k1, k2, k3, k4, k5, k6⟩ := mallocMems_ok A hf f.allocs m1 ⟨a, fun _ => none, file.rows, false, none⟩ l
        hf.nodupA hf.sub (fun _ _ => rfl) rfl rfl (by
          have : f.frees.filterMap (fun _ => none : CsvMem → Option Nat) = [] := by
            rw [List.filterMap_eq_nil_iff]; intros; rfl
          rw [this]; exact H1)
      refine ⟨m2, some o2, ?_, k3, k4, ?_, (by intro h; cases h), (by rw [hA]; intro h; cases h), fun _ hall => ⟨o2, rfl, k6 fun i hi => ?_⟩⟩
      · unfold extractObj
        rw [e]
        simp only []
        rw [if_neg (by rw [hg.1]; decide), if_neg (by rw [hg.2.1]; decide), if_neg hg.2.2, e2, Res.ok_bind]
      · intro x hx he
        cases hx
        obtain ⟨q1, q2, q3, q4, q5⟩ := k5 he
        refine ⟨hg, k2, q1, q2, q3, by rw [q4, c1]; omega, fun i hi => ?_⟩
        rcases Nat.eq_zero_or_pos i with rfl | hi0
        · exact hA
        · have := q5 (i - 1) (by omega)
          rw [c1, show m.calls + 1 + (i - 1) = m.calls + i by omega] at this
          exact this
      · have := hall (i + 1) (by omega)
        rw [c1, show m.calls + 1 + i = m.calls + (i + 1) by omega]
        exact this
    · obtain ⟨q, m2, e2, H2, hq⟩ := objMsg_ok A f.heapMsg H1
      refine ⟨m2, some ⟨a, fun _ => none, 0, true, q⟩, ?_, ?_, ?_, ?_, (by intro h; cases h), (by rw [hA]; intro h; cases h), fun h => absurd h hg⟩
      · unfold extractObj
        rw [e]
        simp only [e2]
        by_cases h1 : file.opens = true
        · by_cases h2 : file.cols = true
          · have h3 : file.rows = 0 := by
              by_contra h3; exact hg ⟨h1, h2, h3⟩
            rw [h1, h2, if_neg (by decide), if_neg (by decide), if_pos h3]
          · rw [h1, if_neg (by decide), if_pos (by simpa using h2)]
        · rw [if_pos (by simpa using h1)]
      · intro x hx hb; cases hx; exact hq hb
      · have : f.frees.filterMap (fun _ => none : CsvMem → Option Nat) = [] := by
          rw [List.filterMap_eq_nil_iff]; intros; rfl
        simp only [objOwn, this, List.nil_append, List.append_assoc]
        exact H2
      · intro x hx he; cases hx; cases he
  · refine ⟨m1, none, ?_, ?_, ?_, ?_, fun _ => hA, fun _ => ⟨rfl, hh⟩, fun _ hall => ?_⟩
    · unfold extractObj; rw [e]
    · intro x hx; cases hx
    · rw [hh]; exact H
    · intro x hx; cases hx
    · have := hall 0 (by omega)
      rw [Nat.add_zero, hA] at this; cases this

theorem destroyObj_ok {h0 : Heap Unit} {f : CsvFmt} (hf : FmtOk f) {o : Option CObj} (hm : MsgOk f o) {m : Mem}
    {l : List Nat} (H : Holds h0 m.heap (objOwn f o ++ l)) :
    ∃ m', destroyObj f o m = .ok m' ∧ Holds h0 m'.heap l ∧ m'.calls = m.calls := by
  cases o with
  | none => exact ⟨m, rfl, H, rfl⟩
  | some x =>
    simp only [objOwn, List.append_assoc] at H
    obtain ⟨m1, e1, H1, c1⟩ := freeMems_ok x.addr f.frees m x.ptr _ hf.nodupF (by simp) H
    unfold destroyObj
    simp only []
    rw [e1, Res.ok_bind]
    simp only []
    cases hb : f.heapMsg
    · have := hm x rfl hb
      rw [this] at H1
      simp only [Bool.false_eq_true, if_false, Res.ok_bind]
      obtain ⟨m2, e2, H2, c2⟩ := Holds.free (p := x.addr) (l := l) (by simpa using H1)
      exact ⟨m2, e2, H2, by omega⟩
    · simp only [if_true]
      obtain ⟨m2, e2, H2, c2⟩ := H1.freeOpt
      obtain ⟨m3, e3, H3, c3⟩ := Holds.free (p := x.addr) (l := l) (by simpa using H2)
      rw [e2, Res.ok_bind]
      exact ⟨m3, e3, H3, by omega⟩

/-- The blocks that belong to the state before the arrays of the DLP object are taken over. -/
def preList (M : CsvKind) (s : CsvSt) : List Nat :=
  objOwn M.geo s.geo ++ (objOwn calFmt s.cal ++ (objOwn M.dlp s.dlp ++ (objOwn M.tau s.tau ++ (s.msg.toList ++ [s.self]))))

structure ObjsOk (M : CsvKind) (s : CsvSt) : Prop where
  geo : MsgOk M.geo s.geo
  cal : MsgOk calFmt s.cal
  dlp : MsgOk M.dlp s.dlp
  tau : MsgOk M.tau s.tau

structure Pre (h0 : Heap Unit) (M : CsvKind) (s : CsvSt) : Prop where
  objs : ObjsOk M s
  ptr : ∀ f, s.ptr f = none
  H : Holds h0 s.mem.heap (preList M s)

theorem csvFrees_nodup : csvFrees.Nodup := by decide

theorem filterMap_none {p : CsvMem → Option Nat} {fs : List CsvMem} (h : ∀ f, p f = none) : fs.filterMap p = [] := by
  rw [List.filterMap_eq_nil_iff]; intro a _; exact h a

theorem csvDestroyMembers_ok {h0 : Heap Unit} {M : CsvKind} {s : CsvSt} (o : ObjsOk M s)
    (H : Holds h0 s.mem.heap (csvFrees.filterMap s.ptr ++ preList M s)) :
    ∃ m', csvDestroyMembers M s = .ok { s with
        mem := m'
        ptr := fun f => if f ∈ csvFrees then none else s.ptr f
        geo := none
        cal := none
        dlp := none
        tau := none } ∧ Holds h0 m'.heap (s.msg.toList ++ [s.self]) := by
  obtain ⟨m1, e1, H1, -⟩ := freeMems_ok s.self csvFrees s.mem s.ptr _ csvFrees_nodup (by simp [preList]) H
  obtain ⟨m2, e2, H2, -⟩ := destroyObj_ok M.geo_ok o.geo H1
  obtain ⟨m3, e3, H3, -⟩ := destroyObj_ok calFmt_ok o.cal H2
  obtain ⟨m4, e4, H4, -⟩ := destroyObj_ok M.dlp_ok o.dlp H3
  obtain ⟨m5, e5, H5, -⟩ := destroyObj_ok M.tau_ok o.tau H4
  refine ⟨m5, ?_, H5⟩
  unfold csvDestroyMembers
  simp only [e1, e2, e3, e4, e5, Res.ok_bind]

theorem fail_ok {h0 : Heap Unit} (A : Nat → Bool) {s : CsvSt} (hm : s.msg = none) {l : List Nat}
    (H : Holds h0 s.mem.heap (l ++ [s.self])) :
    Holds h0 (s.fail A).mem.heap (l ++ ((s.fail A).msg.toList ++ [s.self])) := by
  rcases H.malloc A with ⟨-, p, m, e, H', -⟩ | ⟨-, m, e, hh, -⟩
  · simp only [CsvSt.fail, e]
    refine H'.perm ?_
    simp only [Option.toList, List.singleton_append]
    exact List.perm_middle.symm
  · simp only [CsvSt.fail, e, hh]
    exact H

theorem fail_pre {h0 : Heap Unit} {M : CsvKind} (A : Nat → Bool) {s : CsvSt} (hm : s.msg = none) (P : Pre h0 M s) :
    Pre h0 M (s.fail A) := by
  refine ⟨⟨P.objs.geo, P.objs.cal, P.objs.dlp, P.objs.tau⟩, P.ptr, ?_⟩
  have H := P.H
  unfold preList at H
  rw [hm] at H
  have := fail_ok (s := s) A hm (l := objOwn M.geo s.geo ++ (objOwn calFmt s.cal ++ (objOwn M.dlp s.dlp ++ objOwn M.tau s.tau)))
    (by simpa [List.append_assoc] using H)
  simpa [preList, List.append_assoc, CsvSt.fail] using this

/-- What `put` must satisfy. -/
structure PutOk (M : CsvKind) (f : CsvFmt) (put : CsvSt → Option CObj → CsvSt) (s : CsvSt) : Prop where
  list : ∀ m o, (preList M (put { s with mem := m } o)).Perm (objOwn f o ++ preList M s)
  objs : ∀ m o, MsgOk f o → ObjsOk M (put { s with mem := m } o)
  mem : ∀ m o, (put { s with mem := m } o).mem = m
  ptr : ∀ m o, (put { s with mem := m } o).ptr = s.ptr
  err : ∀ m o, (put { s with mem := m } o).err = s.err
  msg : ∀ m o, (put { s with mem := m } o).msg = s.msg

/-- The effect of one `Extract_*` function. -/
theorem extractStep_ok {h0 : Heap Unit} {M : CsvKind} (A : Nat → Bool) {f : CsvFmt} (hf : FmtOk f)
    {put : CsvSt → Option CObj → CsvSt} (file : FileOut) {s : CsvSt} (hp : PutOk M f put s) (P : Pre h0 M s)
    (he : s.err = false) (hm : s.msg = none) :
    ∃ s', extractStep A M f put file s = .ok s' ∧ Pre h0 M s' ∧
      (s'.err = false → ∃ m x, s' = put { s with mem := m } (some x) ∧ x.err = false ∧ x.n ≠ 0 ∧ x.msg = none ∧ s'.msg = none ∧ fileGood file ∧
        (∀ v ∈ f.allocs, (x.ptr v).isSome) ∧ (∀ v, v ∉ f.allocs → x.ptr v = none) ∧
        m.calls = s.mem.calls + (1 + f.allocs.length) ∧ ∀ i, i < 1 + f.allocs.length → A (s.mem.calls + i) = true) ∧
      (s'.err = true → (s'.geo = none ∧ s'.cal = none ∧ s'.dlp = none ∧ s'.tau = none) ∨
        (A s.mem.calls = false ∧ ∃ m, s' = (put { s with mem := m } none).fail A)) ∧
      (A s.mem.calls = false → ∃ m, s' = (put { s with mem := m } none).fail A) ∧
      (fileGood file → (∀ i, i < 1 + f.allocs.length → A (s.mem.calls + i) = true) → s'.err = false) := by
  obtain ⟨m, o, e, mo, H, ho, hnone, hA, hgood⟩ := extractObj_ok A hf file P.H
  have P1 : Pre h0 M (put { s with mem := m } o) :=
    ⟨hp.objs m o mo, fun g => by rw [hp.ptr]; exact P.ptr g, by rw [hp.mem]; exact H.perm (hp.list m o).symm⟩
  have hm1 : (put { s with mem := m } o).msg = none := by rw [hp.msg]; exact hm
  have he1 : (put { s with mem := m } o).err = false := by rw [hp.err]; exact he
  have P2 := fail_pre A hm1 P1
  unfold extractStep
  rw [if_neg (by rw [he]; decide), e, Res.ok_bind]
  simp only []
  cases o with
  | none =>
    refine ⟨_, rfl, P2, (by intro h; cases h), fun _ => .inr ⟨hnone rfl, m, rfl⟩, fun _ => ⟨m, rfl⟩, fun hg hall => ?_⟩
    obtain ⟨x, hx, -⟩ := hgood hg hall
    cases hx
  | some x =>
    simp only []
    by_cases hx : x.err = true ∨ x.n = 0
    · rw [if_pos hx]
      obtain ⟨m', e', H'⟩ := csvDestroyMembers_ok P2.objs (by rw [filterMap_none P2.ptr]; exact P2.H)
      refine ⟨_, e', ?_, (by intro h; cases h), fun _ => .inl ⟨rfl, rfl, rfl, rfl⟩, ?_, ?_⟩
      · refine ⟨⟨?_, ?_, ?_, ?_⟩, ?_, H'⟩
        · intro x hx; cases hx
        · intro x hx; cases hx
        · intro x hx; cases hx
        · intro x hx; cases hx
        · intro g
          show (if g ∈ csvFrees then none else _) = none
          split
          · rfl
          · exact P2.ptr g
      · intro h; have := (hA h).1; cases this
      · intro hg hall
        obtain ⟨y, hy, hye⟩ := hgood hg hall
        cases hy
        rcases hx with hx | hx
        · rw [hx] at hye; cases hye
        · obtain ⟨q1, q2, -⟩ := ho x rfl hye
          exact absurd (q2.symm.trans hx) q1.2.2
    · rw [if_neg hx]
      rw [not_or] at hx
      have hxe : x.err = false := by simpa using hx.1
      obtain ⟨q1, q2, q3, q4, q5, q6, q7⟩ := ho x rfl hxe
      refine ⟨_, rfl, P1, fun _ => ⟨m, x, rfl, hxe, hx.2, q3, hm1, q1, q4, q5, q6, q7⟩, ?_, ?_, fun _ _ => he1⟩
      · intro h; rw [he1] at h; cases h
      · intro h; have := (hA h).1; cases this

theorem extractStep_err (A : Nat → Bool) (M : CsvKind) (f : CsvFmt) (put : CsvSt → Option CObj → CsvSt) (file : FileOut)
    {s : CsvSt} (he : s.err = true) : extractStep A M f put file s = .ok s := by
  unfold extractStep; rw [if_pos he]

/-- The number of allocation calls up to the DLP file. -/
def dlpEnd : CsvKind → Nat
  | .cassini true => 38
  | .cassini false => 40
  | .uranus => 39

/-- The files that are read before the tau file are good. -/
def filesGood (M : CsvKind) (W : CsvWorld) : Prop :=
  fileGood W.geo ∧ (M ≠ .uranus → fileGood W.cal) ∧ fileGood W.dlp

/-- The DLP object has its arrays. -/
structure DlpFull (M : CsvKind) (x : CObj) : Prop where
  err : x.err = false
  n : x.n ≠ 0
  msg : x.msg = none
  all : ∀ v ∈ M.dlp.allocs, (x.ptr v).isSome
  none : ∀ v, v ∉ M.dlp.allocs → x.ptr v = none


def putGeo (s : CsvSt) (o : Option CObj) : CsvSt := { s with geo := o }
def putCal (s : CsvSt) (o : Option CObj) : CsvSt := { s with cal := o }
def putTau (s : CsvSt) (o : Option CObj) : CsvSt := { s with tau := o }
def putDlp (s : CsvSt) (o : Option CObj) : CsvSt := { s with
  dlp := o
  n := (o.map (·.n)).getD 0 }

theorem putGeo_ok {M : CsvKind} {s : CsvSt} (h : s.geo = none) (o : ObjsOk M s) : PutOk M M.geo putGeo s where
  list m x := by
    simp only [preList, putGeo, h, objOwn, List.nil_append]
    exact List.Perm.refl _
  objs m x hx := ⟨hx, o.cal, o.dlp, o.tau⟩
  mem _ _ := rfl
  ptr _ _ := rfl
  err _ _ := rfl
  msg _ _ := rfl

theorem putCal_ok {M : CsvKind} {s : CsvSt} (h : s.cal = none) (o : ObjsOk M s) : PutOk M calFmt putCal s where
  list m x := by
    simp only [preList, putCal, h]
    exact List.perm_append_comm_assoc _ _ _
  objs m x hx := ⟨o.geo, hx, o.dlp, o.tau⟩
  mem _ _ := rfl
  ptr _ _ := rfl
  err _ _ := rfl
  msg _ _ := rfl

theorem putDlp_ok {M : CsvKind} {s : CsvSt} (h : s.dlp = none) (o : ObjsOk M s) : PutOk M M.dlp putDlp s where
  list m x := by
    simp only [preList, putDlp, h]
    exact ((List.perm_append_comm_assoc _ _ _).append_left _).trans (List.perm_append_comm_assoc _ _ _)
  objs m x hx := ⟨o.geo, o.cal, hx, o.tau⟩
  mem _ _ := rfl
  ptr _ _ := rfl
  err _ _ := rfl
  msg _ _ := rfl

theorem putTau_ok {M : CsvKind} {s : CsvSt} (h : s.tau = none) (o : ObjsOk M s) : PutOk M M.tau putTau s where
  list m x := by
    simp only [preList, putTau, h]
    exact ((((List.perm_append_comm_assoc _ _ _).append_left _).trans (List.perm_append_comm_assoc _ _ _)).append_left _).trans
      (List.perm_append_comm_assoc _ _ _)
  objs m x hx := ⟨o.geo, o.cal, o.dlp, hx⟩
  mem _ _ := rfl
  ptr _ _ := rfl
  err _ _ := rfl
  msg _ _ := rfl

/-- The calibration file, read only for Cassini. -/
def calStep (M : CsvKind) (W : CsvWorld) (s : CsvSt) : Res CsvSt :=
  if M = .uranus then .ok s else extractStep W.A M calFmt putCal W.cal s

/-- State after the geometry and calibration files, `k` calls after the first. -/
structure Stage1 (h0 : Heap Unit) (M : CsvKind) (A : Nat → Bool) (c k : Nat) (good : Prop) (s : CsvSt) : Prop where
  pre : Pre h0 M s
  dlp : s.dlp = none
  tau : s.tau = none
  msg : s.err = false → s.msg = none
  calls : s.err = false → s.mem.calls = c + k
  was : s.err = false → good ∧ ∀ i, i < k → A (c + i) = true
  ok : good → (∀ i, i < k → A (c + i) = true) → s.err = false

theorem range_split {A : Nat → Bool} {c k j : Nat} :
    (∀ i, i < k + j → A (c + i) = true) ↔ (∀ i, i < k → A (c + i) = true) ∧ ∀ i, i < j → A (c + k + i) = true := by
  constructor
  · intro h
    exact ⟨fun i hi => h i (by omega), fun i hi => by rw [Nat.add_assoc]; exact h _ (by omega)⟩
  · rintro ⟨h1, h2⟩ i hi
    by_cases h : i < k
    · exact h1 i h
    · have := h2 (i - k) (by omega)
      rw [show c + k + (i - k) = c + i by omega] at this
      exact this

theorem stage_geo {h0 : Heap Unit} {M : CsvKind} {W : CsvWorld} {m : Mem} {a : Nat} (H : Holds h0 m.heap [a]) :
    ∃ s, extractStep W.A M M.geo putGeo W.geo ⟨m, a, fun _ => none, none, none, none, none, 0, false, none⟩ = .ok s ∧
      Stage1 h0 M W.A m.calls (1 + M.geo.allocs.length) (fileGood W.geo) s ∧ s.cal = none := by
  obtain ⟨s0, hs⟩ : ∃ s0 : CsvSt, s0 = ⟨m, a, fun _ => none, none, none, none, none, 0, false, none⟩ := ⟨_, rfl⟩
  rw [← hs]
  have ho : ObjsOk M s0 := by
    subst hs; constructor <;> (intro x hx; cases hx)
  have P : Pre h0 M s0 := ⟨ho, by subst hs; intro; rfl, by subst hs; exact H⟩
  obtain ⟨s, e, P', h1, h2, -, h4⟩ := extractStep_ok W.A M.geo_ok W.geo (putGeo_ok (by subst hs; rfl) ho) P (by subst hs; rfl)
    (by subst hs; rfl)
  have hc : s0.mem.calls = m.calls := by subst hs; rfl
  rw [hc] at h1 h4
  have hd : s.dlp = none ∧ s.tau = none ∧ s.cal = none := by
    cases he : s.err
    · obtain ⟨m', x, rfl, -⟩ := h1 he
      subst hs; exact ⟨rfl, rfl, rfl⟩
    · rcases h2 he with ⟨-, b, c, d⟩ | ⟨-, m', rfl⟩
      · exact ⟨c, d, b⟩
      · subst hs; exact ⟨rfl, rfl, rfl⟩
  refine ⟨s, e, ⟨P', hd.1, hd.2.1, ?_, ?_, ?_, h4⟩, hd.2.2⟩
  · intro he; obtain ⟨m', x, rfl, -, -, -, q, -⟩ := h1 he; exact q
  · intro he; obtain ⟨m', x, rfl, -, -, -, -, -, -, -, q, -⟩ := h1 he; exact q
  · intro he; obtain ⟨m', x, rfl, -, -, -, -, q1, -, -, -, q2⟩ := h1 he; exact ⟨q1, q2⟩

theorem stage_cal {h0 : Heap Unit} {M : CsvKind} {W : CsvWorld} {c k : Nat} {good : Prop} {s : CsvSt}
    (S : Stage1 h0 M W.A c k good s) (hcal : s.cal = none) :
    ∃ s', calStep M W s = .ok s' ∧
      Stage1 h0 M W.A c (k + if M = .uranus then 0 else 5) (good ∧ (M ≠ .uranus → fileGood W.cal)) s' := by
  unfold calStep
  by_cases hM : M = .uranus
  · rw [if_pos hM, if_pos hM, Nat.add_zero]
    exact ⟨s, rfl, S.pre, S.dlp, S.tau, S.msg, S.calls, fun h => ⟨⟨(S.was h).1, fun h => absurd hM h⟩, (S.was h).2⟩,
      fun h => S.ok h.1⟩
  · rw [if_neg hM, if_neg hM]
    cases he : s.err
    · obtain ⟨s', e, P', h1, h2, -, h4⟩ := extractStep_ok W.A calFmt_ok W.cal (putCal_ok hcal S.pre.objs) S.pre he (S.msg he)
      have hl : 1 + calFmt.allocs.length = 5 := rfl
      rw [hl, S.calls he] at h1 h4
      have hd : s'.dlp = none ∧ s'.tau = none := by
        cases he' : s'.err
        · obtain ⟨m', x, rfl, -⟩ := h1 he'
          exact ⟨S.dlp, S.tau⟩
        · rcases h2 he' with ⟨-, b, c, d⟩ | ⟨-, m', rfl⟩
          · exact ⟨c, d⟩
          · exact ⟨S.dlp, S.tau⟩
      refine ⟨s', e, P', hd.1, hd.2, ?_, ?_, ?_, ?_⟩
      · intro he'; obtain ⟨m', x, rfl, -, -, -, q, -⟩ := h1 he'; exact q
      · intro he'; obtain ⟨m', x, rfl, -, -, -, -, -, -, -, q, -⟩ := h1 he'; rw [← Nat.add_assoc]; exact q
      · intro he'; obtain ⟨m', x, rfl, -, -, -, -, q1, -, -, -, q2⟩ := h1 he'
        exact ⟨⟨(S.was he).1, fun _ => q1⟩, range_split.2 ⟨(S.was he).2, q2⟩⟩
      · intro hg hall
        exact h4 (hg.2 hM) (range_split.1 hall).2
    · rw [extractStep_err _ _ _ _ _ he]
      refine ⟨s, rfl, S.pre, S.dlp, S.tau, S.msg, ?_, ?_, ?_⟩
      · intro h; rw [he] at h; cases h
      · intro h; rw [he] at h; cases h
      · intro hg hall
        exact S.ok hg.1 (range_split.1 hall).1

/-- State after the DLP file (and, if there is one, the tau file). -/
structure Stage2 (h0 : Heap Unit) (M : CsvKind) (A : Nat → Bool) (c k : Nat) (good : Prop) (s : CsvSt) : Prop where
  pre : Pre h0 M s
  dlp : s.err = true → s.dlp = none
  full : s.err = false → ∃ x, s.dlp = some x ∧ DlpFull M x ∧ s.n = x.n
  msg : s.err = false → s.msg = none
  calls : s.err = false → s.mem.calls = c + k
  was : s.err = false → good ∧ ∀ i, i < k → A (c + i) = true
  ok : good → (∀ i, i < k → A (c + i) = true) → s.err = false

theorem stage_dlp {h0 : Heap Unit} {M : CsvKind} {W : CsvWorld} {c k : Nat} {good : Prop} {s : CsvSt}
    (S : Stage1 h0 M W.A c k good s) :
    ∃ s', extractStep W.A M M.dlp putDlp W.dlp s = .ok s' ∧
      Stage2 h0 M W.A c (k + (1 + M.dlp.allocs.length)) (good ∧ fileGood W.dlp) s' ∧ s'.tau = none := by
  cases he : s.err
  · obtain ⟨s', e, P', h1, h2, -, h4⟩ := extractStep_ok W.A M.dlp_ok W.dlp (putDlp_ok S.dlp S.pre.objs) S.pre he (S.msg he)
    rw [S.calls he] at h1 h4
    have hd : (s'.err = true → s'.dlp = none) ∧ s'.tau = none := by
      cases he' : s'.err
      · obtain ⟨m', x, rfl, -⟩ := h1 he'
        exact ⟨(by intro h; cases h), S.tau⟩
      · rcases h2 he' with ⟨-, b, c, d⟩ | ⟨-, m', rfl⟩
        · exact ⟨fun _ => c, d⟩
        · exact ⟨fun _ => rfl, S.tau⟩
    refine ⟨s', e, ⟨P', hd.1, ?_, ?_, ?_, ?_, ?_⟩, hd.2⟩
    · intro he'; obtain ⟨m', x, rfl, a1, a2, a3, -, -, a4, a5, -⟩ := h1 he'
      exact ⟨x, rfl, ⟨a1, a2, a3, a4, a5⟩, rfl⟩
    · intro he'; obtain ⟨m', x, rfl, -, -, -, q, -⟩ := h1 he'; exact q
    · intro he'; obtain ⟨m', x, rfl, -, -, -, -, -, -, -, q, -⟩ := h1 he'; rw [← Nat.add_assoc]; exact q
    · intro he'; obtain ⟨m', x, rfl, -, -, -, -, q1, -, -, -, q2⟩ := h1 he'
      exact ⟨⟨(S.was he).1, q1⟩, range_split.2 ⟨(S.was he).2, q2⟩⟩
    · intro hg hall
      exact h4 hg.2 (range_split.1 hall).2
  · rw [extractStep_err _ _ _ _ _ he]
    refine ⟨s, rfl, ⟨S.pre, fun _ => S.dlp, ?_, S.msg, ?_, ?_, ?_⟩, S.tau⟩
    · intro h; rw [he] at h; cases h
    · intro h; rw [he] at h; cases h
    · intro h; rw [he] at h; cases h
    · intro hg hall
      exact S.ok hg.1 (range_split.1 hall).1

/-- The tau file, if there is one. -/
def tauStep (M : CsvKind) (W : CsvWorld) (s : CsvSt) : Res CsvSt :=
  match W.tau with
  | none => .ok s
  | some f => extractStep W.A M M.tau putTau f s

/-- The allocation of the tau object is the first that fails. -/
def TauObjFails (A : Nat → Bool) (c k : Nat) (good : Prop) (t : Option FileOut) : Prop :=
  t ≠ none ∧ good ∧ (∀ i, i < k → A (c + i) = true) ∧ A (c + k) = false

def tauCalls (M : CsvKind) : Option FileOut → Nat
  | none => 0
  | some _ => 1 + M.tau.allocs.length

theorem stage_tau {h0 : Heap Unit} {M : CsvKind} {W : CsvWorld} {c k : Nat} {good : Prop} {s : CsvSt}
    (S : Stage2 h0 M W.A c k good s) (ht : s.tau = none) :
    ∃ s', tauStep M W s = .ok s' ∧
      (¬ TauObjFails W.A c k good W.tau →
        Stage2 h0 M W.A c (k + tauCalls M W.tau) (good ∧ ∀ f, W.tau = some f → fileGood f) s' ∧
        (s'.err = false → s'.tau.isSome = W.tau.isSome)) ∧
      (TauObjFails W.A c k good W.tau → ∃ x m, s.dlp = some x ∧ DlpFull M x ∧ s.err = false ∧
        s' = ({ s with mem := m }.fail W.A) ∧ Pre h0 M s') := by
  unfold tauStep
  cases hW : W.tau with
  | none =>
    refine ⟨s, rfl, fun _ => ⟨⟨S.pre, S.dlp, S.full, S.msg, S.calls, fun h => ⟨⟨(S.was h).1, by intro f hf; cases hf⟩, (S.was h).2⟩,
      fun h => S.ok h.1⟩, fun _ => by rw [ht]; rfl⟩, fun h => absurd rfl h.1⟩
  | some f =>
    simp only []
    cases he : s.err
    · obtain ⟨s', e, P', h1, h2, h3, h4⟩ := extractStep_ok W.A M.tau_ok f (putTau_ok ht S.pre.objs) S.pre he (S.msg he)
      rw [S.calls he] at h1 h2 h3 h4
      refine ⟨s', e, fun hn => ?_, fun ht' => ?_⟩
      · have hA : W.A (c + k) ≠ false := fun h => hn ⟨by simp, (S.was he).1, (S.was he).2, h⟩
        refine ⟨⟨P', ?_, ?_, ?_, ?_, ?_, ?_⟩, ?_⟩
        · intro he'
          rcases h2 he' with ⟨-, -, q, -⟩ | ⟨q, -⟩
          · exact q
          · exact absurd q hA
        · intro he'; obtain ⟨m', x, rfl, -⟩ := h1 he'
          exact S.full he
        · intro he'; obtain ⟨m', x, rfl, -, -, -, q, -⟩ := h1 he'; exact q
        · intro he'; obtain ⟨m', x, rfl, -, -, -, -, -, -, -, q, -⟩ := h1 he'; rw [← Nat.add_assoc]; exact q
        · intro he'; obtain ⟨m', x, rfl, -, -, -, -, q1, -, -, -, q2⟩ := h1 he'
          exact ⟨⟨(S.was he).1, fun g hg => by cases hg; exact q1⟩, range_split.2 ⟨(S.was he).2, q2⟩⟩
        · intro hg hall
          exact h4 (hg.2 f rfl) (range_split.1 hall).2
        · intro he'; obtain ⟨m', x, rfl, -⟩ := h1 he'; rfl
      · obtain ⟨x, hx, hf, -⟩ := S.full he
        obtain ⟨m, rfl⟩ := h3 ht'.2.2.2
        refine ⟨x, m, hx, hf, rfl, ?_, P'⟩
        simp only [putTau, ht, he]
    · rw [extractStep_err _ _ _ _ _ he]
      refine ⟨s, rfl, fun _ => ⟨⟨S.pre, S.dlp, S.full, S.msg, ?_, ?_, ?_⟩, ?_⟩, fun h => ?_⟩
      · intro h; rw [he] at h; cases h
      · intro h; rw [he] at h; cases h
      · intro hg hall
        exact S.ok hg.1 (range_split.1 hall).1
      · intro h; rw [he] at h; cases h
      · have := S.ok h.2.1 h.2.2.1
        rw [he] at this; cases this

/-- What is left of the DLP object after its arrays were taken over. -/
def dlpRest (M : CsvKind) (o : CObj) : List Nat :=
  (if M = .uranus then (o.ptr .F).toList else []) ++ [o.addr]

/-- The blocks besides the arrays of the combined object. -/
def postList (M : CsvKind) (s : CsvSt) (o : CObj) : List Nat :=
  objOwn M.geo s.geo ++ (objOwn calFmt s.cal ++ (objOwn M.tau s.tau ++ (dlpRest M o ++ (s.msg.toList ++ [s.self]))))

structure Post (h0 : Heap Unit) (M : CsvKind) (s : CsvSt) (o : CObj) : Prop where
  dlp : s.dlp = some o
  objs : ObjsOk M s
  supp : ∀ f, f ∉ csvFrees → s.ptr f = none
  rho : ∃ p, s.ptr .rho = some p ∧ o.ptr .rho = some p
  n : s.n ≠ 0
  H : Holds h0 s.mem.heap (csvFrees.filterMap s.ptr ++ postList M s o)

/-- Where the arrays of the combined object come from. -/
def source (M : CsvKind) (f : CsvMem) : Option CsvMem := (M.steal.find? fun x => x.1 = f).map (·.2)

/-- The members of the DLP object that are not taken over. -/
def notStolen : CsvKind → List CsvMem
  | .cassini true => [.pNorm]
  | .cassini false => []
  | .uranus => [.F]

theorem steal_source (M : CsvKind) (p : CsvMem → Option Nat) (f : CsvMem) :
    M.steal.foldl (fun q x => setMem q x.1 (p x.2)) (fun _ => none) f = (source M f).bind p := by
  rcases M with ⟨_ | _⟩ | _ <;> cases f <;> rfl

theorem source_perm (M : CsvKind) : M.dlp.frees.Perm (csvFrees.filterMap (source M) ++ notStolen M) := by
  rcases M with ⟨_ | _⟩ | _ <;> decide

theorem source_supp (M : CsvKind) (f : CsvMem) (h : f ∉ csvFrees) : source M f = none := by
  rcases M with ⟨_ | _⟩ | _ <;> cases f <;> first | rfl | exact absurd (by decide) h

theorem dlp_nofail (M : CsvKind) : M.dlp.allocs.length = (match M with | .cassini true => 12 | .cassini false => 13 | .uranus => 17) := by
  rcases M with ⟨_ | _⟩ | _ <;> rfl

def stealCalls (M : CsvKind) : Nat := if M = .cassini true then 1 else 0

structure Stage3 (h0 : Heap Unit) (M : CsvKind) (A : Nat → Bool) (c k : Nat) (good : Prop) (s : CsvSt) (o : CObj) : Prop where
  post : Post h0 M s o
  empty : s.err = false → ∀ b, ∀ v ∈ M.mallocs b, s.ptr v = none
  arr : s.err = false → ∀ f, (source M f).isSome ∨ (M = .cassini true ∧ f = .pNorm) → (s.ptr f).isSome
  msg : s.err = false → s.msg = none
  calls : s.err = false → s.mem.calls = c + k
  was : s.err = false → good ∧ ∀ i, i < k → A (c + i) = true
  ok : good → (∀ i, i < k → A (c + i) = true) → s.err = false

theorem steal_list {M : CsvKind} {o : CObj} (ho : DlpFull M o) :
    (objOwn M.dlp (some o)).Perm (csvFrees.filterMap (fun f => (source M f).bind o.ptr) ++ dlpRest M o) := by
  have h1 : csvFrees.filterMap (fun f => (source M f).bind o.ptr) = (csvFrees.filterMap (source M)).filterMap o.ptr := by
    rw [List.filterMap_filterMap]
  have h2 : (notStolen M).filterMap o.ptr = if M = .uranus then (o.ptr .F).toList else [] := by
    rcases M with ⟨_ | _⟩ | _
    · rfl
    · rw [if_neg (by decide)]
      show [CsvMem.pNorm].filterMap o.ptr = []
      rw [filterMap_cons_opt, ho.none .pNorm (by decide)]; rfl
    · rw [if_pos rfl]
      show [CsvMem.F].filterMap o.ptr = _
      rw [filterMap_cons_opt]; simp
  have h3 := (source_perm M).filterMap o.ptr
  rw [List.filterMap_append, h2, ← h1] at h3
  simp only [objOwn, dlpRest, ho.msg, Option.toList, List.nil_append, ← List.append_assoc]
  exact h3.append_right _

theorem stage_steal {h0 : Heap Unit} {M : CsvKind} {A : Nat → Bool} {c k : Nat} {good : Prop} {s : CsvSt}
    (S : Stage2 h0 M A c k good s) (he : s.err = false) :
    ∃ s' o, stealStep A M s = .ok s' ∧ s.dlp = some o ∧ Stage3 h0 M A c (k + stealCalls M) good s' o ∧ s'.tau = s.tau := by
  obtain ⟨o, ho, hF, hn⟩ := S.full he
  have hp : (M.steal.foldl (fun p x => setMem p x.1 (o.ptr x.2)) s.ptr) = fun f => (source M f).bind o.ptr := by
    funext f
    rw [show s.ptr = fun _ => none from funext S.pre.ptr]
    exact steal_source M o.ptr f
  have hrho : source M .rho = some .rho := by rcases M with ⟨_ | _⟩ | _ <;> rfl
  have hrs : (o.ptr .rho).isSome := hF.all .rho (by rcases M with ⟨_ | _⟩ | _ <;> decide)
  obtain ⟨r, hr⟩ := Option.isSome_iff_exists.1 hrs
  have hE : ∀ b, ∀ v ∈ M.mallocs b, source M v = none := by
    intro b; rcases M with ⟨_ | _⟩ | _ <;> cases b <;> decide
  have H1 : Holds h0 s.mem.heap (csvFrees.filterMap (fun f => (source M f).bind o.ptr) ++ postList M s o) := by
    refine S.pre.H.perm ?_
    simp only [preList, postList, ho]
    refine List.Perm.trans (l₂ := objOwn M.dlp (some o) ++ (objOwn M.geo s.geo ++ (objOwn calFmt s.cal ++ (objOwn M.tau s.tau ++
      (s.msg.toList ++ [s.self]))))) ?_ ?_
    · exact (((List.perm_append_comm_assoc _ _ _).append_left _).trans (List.perm_append_comm_assoc _ _ _))
    · refine ((steal_list hF).append_right _).trans ?_
      rw [List.append_assoc]
      refine List.Perm.append_left _ ?_
      exact (List.perm_append_comm_assoc _ _ _).trans (((List.perm_append_comm_assoc _ _ _).trans
        ((List.perm_append_comm_assoc _ _ _).append_left _)).append_left _)
  have hS : ∀ f, (source M f).isSome → ((source M f).bind o.ptr).isSome := by
    intro f hf
    obtain ⟨g, hg⟩ := Option.isSome_iff_exists.1 hf
    rw [hg]
    refine hF.all g ?_
    have : ∀ f g, source M f = some g → g ∈ M.dlp.allocs := by
      intro f g; rcases M with ⟨_ | _⟩ | _ <;> cases f <;> intro h <;> first | (cases h; decide) | cases h
    exact this f g hg
  have hm := S.msg he
  unfold stealStep stealCalls
  rw [if_neg (by rw [he]; decide), ho]
  simp only []
  rw [if_neg (by rw [hF.err]; decide), hp]
  by_cases hM : M = .cassini true
  · rw [if_pos hM, if_pos hM]
    have hpn : source M .pNorm = none := by rw [hM]; rfl
    have hset : setMem (fun f => (source M f).bind o.ptr) .pNorm none = fun f => (source M f).bind o.ptr := by
      funext g
      by_cases hg : g = .pNorm
      · subst hg; rw [setMem_same, hpn]; rfl
      · exact setMem_ne _ _ hg
    rcases H1.malloc A with ⟨hA, p, m, e, H', c'⟩ | ⟨hA, m, e, hh, c'⟩
    · simp only [e]
      refine ⟨_, o, rfl, rfl, ⟨⟨rfl, ⟨S.pre.objs.geo, S.pre.objs.cal, by rw [← ho]; exact S.pre.objs.dlp, S.pre.objs.tau⟩, ?_, ⟨r, ?_, hr⟩, by rw [hn]; exact hF.n, ?_⟩,
        ?_, ?_, fun _ => hm, fun _ => ?_, fun _ => ⟨(S.was he).1, ?_⟩, fun _ _ => he⟩, rfl⟩
      · intro f hf
        show setMem (fun f => (source M f).bind o.ptr) CsvMem.pNorm (some p) f = none
        have : f ≠ .pNorm := fun h => hf (by rw [h]; decide)
        rw [setMem_ne _ _ this, source_supp M f hf]; rfl
      · show setMem (fun f => (source M f).bind o.ptr) CsvMem.pNorm (some p) CsvMem.rho = _
        rw [setMem_ne _ _ (by decide), hrho]; exact hr
      · refine H'.perm ?_
        exact ((filterMap_setMem_perm _ p (by decide) csvFrees_nodup (by rw [hpn]; rfl)).append_right _).symm
      · intro _ b v hv
        have : v ≠ .pNorm := by
          intro h; subst h; subst hM; cases b <;> exact absurd hv (by decide)
        show setMem (fun f => (source M f).bind o.ptr) CsvMem.pNorm (some p) v = none
        rw [setMem_ne _ _ this, hE b v hv]; rfl
      · intro _ f hf
        show (setMem (fun f => (source M f).bind o.ptr) CsvMem.pNorm (some p) f).isSome
        by_cases h : f = .pNorm
        · subst h; rw [setMem_same]; rfl
        · rw [setMem_ne _ _ h]
          rcases hf with hf | hf
          · exact hS f hf
          · exact absurd hf.2 h
      · show m.calls = _
        rw [c', S.calls he]; omega
      · refine range_split.2 ⟨(S.was he).2, fun i hi => ?_⟩
        rw [show i = 0 by omega, Nat.add_zero, ← S.calls he]; exact hA
    · simp only [e]
      rw [← hh] at H1
      refine ⟨_, o, rfl, rfl, ⟨⟨rfl, ⟨S.pre.objs.geo, S.pre.objs.cal, by rw [← ho]; exact S.pre.objs.dlp, S.pre.objs.tau⟩, ?_, ⟨r, ?_, hr⟩, by rw [CsvSt.fail]; show s.n ≠ 0; rw [hn]; exact hF.n, ?_⟩,
        (by intro h; cases h), (by intro h; cases h), (by intro h; cases h), (by intro h; cases h), (by intro h; cases h),
        fun _ hall => ?_⟩, rfl⟩
      · intro f hf
        show setMem (fun f => (source M f).bind o.ptr) CsvMem.pNorm none f = none
        rw [hset]; show (source M f).bind o.ptr = none
        rw [source_supp M f hf]; rfl
      · show setMem (fun f => (source M f).bind o.ptr) CsvMem.pNorm none CsvMem.rho = _
        rw [hset]; show (source M .rho).bind o.ptr = _
        rw [hrho]; exact hr
      · have := fail_ok (s := { s with
          mem := m
          ptr := fun f => (source M f).bind o.ptr }) A hm (l := csvFrees.filterMap (fun f => (source M f).bind o.ptr) ++
            (objOwn M.geo s.geo ++ (objOwn calFmt s.cal ++ (objOwn M.tau s.tau ++ dlpRest M o)))) (by
            simpa [postList, hm, List.append_assoc] using H1)
        rw [hset]
        simpa [postList, List.append_assoc, CsvSt.fail] using this
      · have := (range_split.1 hall).2 0 (by omega)
        rw [Nat.add_zero, ← S.calls he, hA] at this; cases this
  · rw [if_neg hM, if_neg hM]
    refine ⟨_, o, rfl, rfl, ⟨⟨rfl, ⟨S.pre.objs.geo, S.pre.objs.cal, by rw [← ho]; exact S.pre.objs.dlp, S.pre.objs.tau⟩, ?_, ⟨r, ?_, hr⟩, by rw [hn]; exact hF.n, H1⟩,
      ?_, ?_, fun _ => hm, fun _ => S.calls he, fun _ => S.was he, fun _ _ => he⟩, rfl⟩
    · intro f hf
      show (source M f).bind o.ptr = none
      rw [source_supp M f hf]; rfl
    · show (source M .rho).bind o.ptr = _
      rw [hrho]; exact hr
    · intro _ b v hv
      show (source M v).bind o.ptr = none
      rw [hE b v hv]; rfl
    · intro _ f hf
      rcases hf with hf | hf
      · exact hS f hf
      · exact absurd hf.1 hM

/-- Destroying the members after the arrays were taken over releases an array twice. -/
theorem csvDestroyMembers_double {h0 : Heap Unit} {M : CsvKind} {s : CsvSt} {o : CObj} (P : Post h0 M s o) :
    csvDestroyMembers M s = .ub .doubleFree := by
  obtain ⟨r, hr, hr'⟩ := P.rho
  have hmem : r ∈ csvFrees.filterMap s.ptr := List.mem_filterMap.2 ⟨.rho, by decide, hr⟩
  obtain ⟨m1, e1, H1, -⟩ := freeMems_ok s.self csvFrees s.mem s.ptr _ csvFrees_nodup (by simp [postList]) P.H
  obtain ⟨m2, e2, H2, -⟩ := destroyObj_ok M.geo_ok P.objs.geo H1
  obtain ⟨m3, e3, H3, -⟩ := destroyObj_ok calFmt_ok P.objs.cal H2
  have hnot : r ∉ postList M s o := fun h => (List.nodup_append.1 P.H.nodup).2.2 r hmem r h rfl
  have hdead : m3.heap.blk r = none := by
    rw [H3.rest r (fun h => hnot (by
      unfold postList
      exact List.mem_append_right _ (List.mem_append_right _ h)))]
    exact P.H.old r (List.mem_append_left _ hmem)
  have haddr : m3.heap.get (some o.addr) = .ok () := H3.get (by simp [dlpRest])
  have e4 : destroyObj M.dlp s.dlp m3 = .ub .doubleFree := by
    rw [P.dlp]
    have : freeMems o.addr M.dlp.frees (m3, o.ptr) = .ub .doubleFree := by
      rcases M with ⟨_ | _⟩ | _ <;>
      · simp only [CsvKind.dlp, dlpFmt, uranusDlpFmt, freeMems, haddr, Res.ok_bind, hr', Mem.free, Heap.free, hdead]
        rfl
    simp only [destroyObj, this]
    rfl
  unfold csvDestroyMembers
  simp only [e1, e2, e3, e4, Res.ok_bind]
  rfl

theorem csvMallocs_ok {h0 : Heap Unit} (A : Nat → Bool) {M : CsvKind} {o : CObj} : ∀ (vs : List CsvMem) (s : CsvSt),
    vs.Nodup → (∀ v ∈ vs, v ∈ csvFrees ∧ v ≠ .rho) → (∀ v ∈ vs, s.ptr v = none) → s.err = false → s.msg = none → Post h0 M s o →
    ((∀ i, i < vs.length → A (s.mem.calls + i) = true) → ∃ s', csvMallocs A M vs s = .ok s' ∧ Post h0 M s' o ∧
      s'.err = false ∧ s'.msg = none ∧ (∀ v ∈ vs, (s'.ptr v).isSome) ∧ ∀ v, (s.ptr v).isSome → (s'.ptr v).isSome) ∧
    (¬ (∀ i, i < vs.length → A (s.mem.calls + i) = true) → csvMallocs A M vs s = .ub .doubleFree)
  | [], s, _, _, _, he, hm, P => ⟨fun _ => ⟨s, rfl, P, he, hm, by simp, fun _ h => h⟩, fun h => absurd (by simp) h⟩
  | v :: vs, s, hn, hs, hp, he, hm, P => by
    obtain ⟨h1, h2⟩ := List.nodup_cons.1 hn
    have hget := P.H.get (p := s.self) (by simp [postList])
    have hv := hp v List.mem_cons_self
    obtain ⟨hvf, hvr⟩ := hs v List.mem_cons_self
    obtain ⟨r, hr, hr'⟩ := P.rho
    rw [csvMallocs, hget, Res.ok_bind]
    rcases P.H.malloc A with ⟨hA, p, m, e, H', c'⟩ | ⟨hA, m, e, hh, c'⟩
    · simp only [e]
      have ih := csvMallocs_ok (h0 := h0) A (M := M) (o := o) vs { s with
          mem := m
          ptr := setMem s.ptr v (some p) } h2 (fun x hx => hs x (List.mem_cons_of_mem _ hx)) (fun x hx => by
          have : x ≠ v := fun e => h1 (e ▸ hx)
          show setMem s.ptr v (some p) x = none
          rw [setMem_ne _ _ this]; exact hp x (List.mem_cons_of_mem _ hx)) he hm ⟨P.dlp, ⟨P.objs.geo, P.objs.cal, P.objs.dlp, P.objs.tau⟩, by
            intro f hf
            show setMem _ _ _ f = none
            rw [setMem_ne _ _ (fun h => hf (by rw [h]; exact hvf))]; exact P.supp f hf,
          ⟨r, by
            show setMem _ _ _ CsvMem.rho = _
            rw [setMem_ne _ _ hvr.symm]; exact hr, hr'⟩, P.n,
          H'.perm (((filterMap_setMem_perm s.ptr p hvf csvFrees_nodup hv).append_right _).symm)⟩
      have hiff : (∀ i, i < (v :: vs).length → A (s.mem.calls + i) = true) ↔ ∀ i, i < vs.length → A (m.calls + i) = true := by
        rw [List.length_cons, Nat.add_comm, range_split, c']
        constructor
        · exact fun h => h.2
        · intro h
          exact ⟨fun i hi => by rw [show i = 0 by omega]; exact hA, h⟩
      rw [hiff]
      refine ⟨fun hall => ?_, ih.2⟩
      obtain ⟨s', k1, k2, k3, k4, k5, k6⟩ := ih.1 hall
      refine ⟨s', k1, k2, k3, k4, ?_, ?_⟩
      · intro x hx
        rcases List.mem_cons.1 hx with rfl | hx
        · refine k6 x ?_
          show (setMem s.ptr x (some p) x).isSome
          rw [setMem_same]; rfl
        · exact k5 x hx
      · intro x hx
        refine k6 x ?_
        have : x ≠ v := fun h => by rw [h, hv] at hx; cases hx
        show (setMem s.ptr v (some p) x).isSome
        rw [setMem_ne _ _ this]; exact hx
    · simp only [e]
      refine ⟨fun h => ?_, fun _ => ?_⟩
      · have := h 0 (by simp)
        rw [Nat.add_zero, hA] at this; cases this
      · have hset : setMem s.ptr v none = s.ptr := by
          funext g
          by_cases hg : g = v
          · subst hg; rw [setMem_same, hv]
          · exact setMem_ne _ _ hg
        rw [hset]
        refine csvDestroyMembers_double (h0 := h0) (o := o) ⟨P.dlp, ⟨P.objs.geo, P.objs.cal, P.objs.dlp, P.objs.tau⟩, P.supp, P.rho, P.n, ?_⟩
        have H := P.H
        rw [← hh] at H
        have := fail_ok (s := { s with mem := m }) A hm (l := csvFrees.filterMap s.ptr ++
            (objOwn M.geo s.geo ++ (objOwn calFmt s.cal ++ (objOwn M.tau s.tau ++ dlpRest M o)))) (by
            simpa [postList, hm, List.append_assoc] using H)
        simpa [postList, List.append_assoc, CsvSt.fail] using this

theorem post_fail {h0 : Heap Unit} {M : CsvKind} (A : Nat → Bool) {s : CsvSt} {o : CObj} (hm : s.msg = none) (P : Post h0 M s o) :
    Post h0 M (s.fail A) o := by
  refine ⟨P.dlp, ⟨P.objs.geo, P.objs.cal, P.objs.dlp, P.objs.tau⟩, P.supp, P.rho, P.n, ?_⟩
  have := fail_ok (s := s) A hm (l := csvFrees.filterMap s.ptr ++
      (objOwn M.geo s.geo ++ (objOwn calFmt s.cal ++ (objOwn M.tau s.tau ++ dlpRest M o)))) (by
      simpa [postList, hm, List.append_assoc] using P.H)
  simpa [postList, List.append_assoc, CsvSt.fail] using this

theorem post_check {h0 : Heap Unit} {M : CsvKind} (A : Nat → Bool) (b : Bool) {s : CsvSt} {o : CObj}
    (hm : s.err = false → s.msg = none) (P : Post h0 M s o) :
    Post h0 M (checkStep A b s) o ∧ ((checkStep A b s).err = false → (checkStep A b s).msg = none) ∧
      (checkStep A b s).err = (s.err || b) ∧ (checkStep A b s).ptr = s.ptr := by
  unfold checkStep
  cases he : s.err
  · cases b
    · exact ⟨P, fun _ => hm he, he, rfl⟩
    · exact ⟨post_fail A (hm he) P, (by intro h; cases h), rfl, rfl⟩
  · exact ⟨P, (by intro h; rw [if_pos rfl, he] at h; cases h), he, rfl⟩

theorem check_err (A : Nat → Bool) (b : Bool) {s : CsvSt} (he : s.err = true) : checkStep A b s = s := by
  unfold checkStep; rw [if_pos he]

/-- The object that is returned. -/
structure Fin (h0 : Heap Unit) (s : CsvSt) : Prop where
  none : s.geo = none ∧ s.cal = none ∧ s.dlp = none ∧ s.tau = none
  supp : ∀ f, f ∉ csvFrees → s.ptr f = Option.none
  H : Holds h0 s.mem.heap (csvFrees.filterMap s.ptr ++ (s.msg.toList ++ [s.self]))

theorem finish_post {h0 : Heap Unit} {M : CsvKind} {s : CsvSt} {o : CObj} (P : Post h0 M s o) :
    ∃ s', finishStep M s = .ok s' ∧ Fin h0 s' ∧ s'.err = s.err ∧ s'.ptr = s.ptr := by
  have H : Holds h0 s.mem.heap (objOwn M.geo s.geo ++ (objOwn calFmt s.cal ++ (objOwn M.tau s.tau ++ (dlpRest M o ++
      (csvFrees.filterMap s.ptr ++ (s.msg.toList ++ [s.self])))))) := by
    refine P.H.perm ?_
    unfold postList
    exact (List.perm_append_comm_assoc _ _ _).trans (((List.perm_append_comm_assoc _ _ _).trans
      (((List.perm_append_comm_assoc _ _ _).trans ((List.perm_append_comm_assoc _ _ _).append_left _)).append_left _)).append_left _)
  obtain ⟨m1, e1, H1, -⟩ := destroyObj_ok M.geo_ok P.objs.geo H
  obtain ⟨m2, e2, H2, -⟩ := destroyObj_ok calFmt_ok P.objs.cal H1
  obtain ⟨m3, e3, H3, -⟩ := destroyObj_ok M.tau_ok P.objs.tau H2
  unfold finishStep
  simp only [e1, e2, e3, Res.ok_bind, P.dlp]
  unfold dlpRest at H3
  cases M with
  | cassini d =>
    rw [if_neg (by simp)] at H3
    obtain ⟨m4, e4, H4, -⟩ := Holds.free (p := o.addr) H3
    simp only [Option.map_some, e4, Res.ok_bind]
    exact ⟨_, rfl, ⟨⟨rfl, rfl, rfl, rfl⟩, P.supp, H4⟩, rfl, rfl⟩
  | uranus =>
    rw [if_pos rfl, List.append_assoc] at H3
    obtain ⟨m4, e4, H4, -⟩ := H3.freeOpt
    obtain ⟨m5, e5, H5, -⟩ := Holds.free (p := o.addr) H4
    have hg := H3.get (p := o.addr) (by simp)
    simp only [hg, Option.map_some, e4, e5, Res.ok_bind]
    exact ⟨_, rfl, ⟨⟨rfl, rfl, rfl, rfl⟩, P.supp, H5⟩, rfl, rfl⟩

theorem finish_pre {h0 : Heap Unit} {d : Bool} {s : CsvSt} (P : Pre h0 (.cassini d) s) (hd : s.dlp = none) :
    ∃ s', finishStep (.cassini d) s = .ok s' ∧ Fin h0 s' ∧ s'.err = s.err ∧ s'.msg = s.msg := by
  have H := P.H
  simp only [preList, hd, objOwn, List.nil_append] at H
  obtain ⟨m1, e1, H1, -⟩ := destroyObj_ok (CsvKind.geo_ok _) P.objs.geo H
  obtain ⟨m2, e2, H2, -⟩ := destroyObj_ok calFmt_ok P.objs.cal H1
  obtain ⟨m3, e3, H3, -⟩ := destroyObj_ok (CsvKind.tau_ok _) P.objs.tau H2
  unfold finishStep
  simp only [e1, e2, e3, Res.ok_bind, hd]
  refine ⟨_, rfl, ⟨⟨rfl, rfl, rfl, rfl⟩, fun f _ => P.ptr f, ?_⟩, rfl, rfl⟩
  rw [filterMap_none P.ptr]
  exact H3

theorem fin_destroy {h0 : Heap Unit} {M : CsvKind} {s : CsvSt} (F : Fin h0 s) :
    ∃ m', ownDestroy M s = .ok m' ∧ Holds h0 m'.heap [] := by
  obtain ⟨a, b, c, d⟩ := F.none
  have ho : ObjsOk M s := by
    constructor
    · rw [a]; intro x hx; cases hx
    · rw [b]; intro x hx; cases hx
    · rw [c]; intro x hx; cases hx
    · rw [d]; intro x hx; cases hx
  obtain ⟨m1, e1, H1⟩ := csvDestroyMembers_ok ho (by simpa only [preList, a, b, c, d, objOwn, List.nil_append] using F.H)
  obtain ⟨m2, e2, H2, -⟩ := H1.freeOpt
  obtain ⟨m3, e3, H3, -⟩ := H2.free
  refine ⟨m3, ?_, H3⟩
  unfold ownDestroy
  simp only [e1, Res.ok_bind, e2, e3]

end Verif
