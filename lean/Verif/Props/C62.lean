import Verif.Model.TauHeap

/-!
# C62 Temporary memory of a reconstruction, C64 ownership over the life of a tau object
-/
namespace Verif

namespace Spec

/-- The live blocks are exactly: those of the rest of the program (`base`), the blocks of the
list `tmp`, and the arrays of the tau object with pointer members `p`; none of them is counted
twice.  (Addresses that were never handed out are not live.) -/
structure LiveIs (base : Nat → Prop) (tmp : List Nat) (m : Mem) (p : TauPtr) : Prop where
  fresh : ∀ q, m.heap.next ≤ q → m.heap.blk q = none
  live : ∀ q, m.heap.blk q ≠ none ↔ base q ∨ q ∈ tmp ∨ ∃ s, p s = some q
  nodup : tmp.Nodup
  tmpBase : ∀ q ∈ tmp, ¬ base q
  own : ∀ s s' q, p s = some q → p s' = some q → s = s'
  apart : ∀ s q, p s = some q → ¬ base q ∧ q ∉ tmp

/-- Blocks that `Get_Window_Width` leaves behind, by the exit and `bfac`. -/
def gwwLost (P : GwwPlan) : Nat :=
  (match P.exit with
    | .early => 0
    | .noLeft => 2
    | .noRight => 4
    | .late => 2) + (if P.exit ≠ .early ∧ P.bfac = true then 1 else 0)

/-- Calls of allocation functions in `Get_Window_Width`. -/
def gwwCalls (P : GwwPlan) : Nat :=
  (match P.exit with
    | .early => 0
    | .noLeft => 5
    | .noRight => 8
    | .late => 8) + (if P.exit ≠ .early ∧ P.bfac = true then 5 else 0)

/-- No window array is resized to 0 elements (unless `realloc(p, 0)` keeps or returns a block). -/
def NoZero (z : ZeroRealloc) : DriverPlan → Prop
  | .half _ ss => z = .nullFreed → ∀ n ∈ ss, n ≠ 0
  | _ => True

/-- The given members are not NULL. -/
def HasAll (p : TauPtr) (ss : List Slot) : Prop := ∀ s ∈ ss, (p s).isSome

/-- Number of blocks a pointer owns. -/
def cnt (o : Option Nat) : Nat := if o.isSome then 1 else 0

/-- Blocks that nobody owns after `Reconstruction` of an object with the members `p`, `out` telling
whether `T_out` could be allocated: those of `Get_Window_Width`; the old `T_out`; the old `T_in` if the
range is too small for forward modelling, or else the old `T_fwd`. -/
def reconLost (P : ReconPlan) (p : TauPtr) (out : Bool) : Nat :=
  if P.checks = true ∧ (p (.d .w) = none ∨ P.gww.exit = .early) then
    gwwLost P.gww +
      (if P.gww.exit = .late ∧ P.range = true then
        cnt (p (.c .tOut)) +
          (if out = true ∧ P.fwd = true then
            (if P.fits = true then cnt (p (.c .tFwd)) else cnt (p (.c .tIn)))
          else 0)
      else 0)
  else 0

end Spec
open Spec

/-! ### Elementary steps -/

section
variable {base : Nat → Prop} {T : List Nat} {m : Mem} {p : TauPtr}

theorem Spec.LiveIs.perm {T' : List Nat} (h : LiveIs base T m p) (e : T.Perm T') : LiveIs base T' m p where
  fresh := h.fresh
  live q := by rw [h.live q, e.mem_iff]
  nodup := e.nodup_iff.1 h.nodup
  tmpBase q hq := h.tmpBase q (e.mem_iff.2 hq)
  own := h.own
  apart s q hq := ⟨(h.apart s q hq).1, fun hh => (h.apart s q hq).2 (e.mem_iff.2 hh)⟩

theorem Spec.LiveIs.calls (h : LiveIs base T m p) (n : Nat) : LiveIs base T ⟨m.heap, n⟩ p :=
  ⟨h.fresh, h.live, h.nodup, h.tmpBase, h.own, h.apart⟩

theorem Spec.LiveIs.new (h : LiveIs base T m p) : ¬ base m.heap.next ∧ m.heap.next ∉ T ∧ ∀ s, p s ≠ some m.heap.next := by
  have := h.fresh m.heap.next (Nat.le_refl _)
  have k := fun hh => (h.live m.heap.next).2 hh this
  exact ⟨fun q => k (.inl q), fun q => k (.inr (.inl q)), fun s q => k (.inr (.inr ⟨s, q⟩))⟩

theorem Spec.LiveIs.alloc (h : LiveIs base T m p) (n : Nat) :
    LiveIs base (m.heap.next :: T) ⟨(m.heap.alloc ()).2, n⟩ p := by
  obtain ⟨n1, n2, n3⟩ := h.new
  refine ⟨fun q hq => ?_, fun q => ?_, List.nodup_cons.2 ⟨n2, h.nodup⟩, fun q hq => ?_, h.own, fun s q hq => ?_⟩
  · simp only [Heap.alloc] at hq ⊢
    rw [if_neg (by omega)]
    exact h.fresh q (by omega)
  · simp only [Heap.alloc, List.mem_cons]
    by_cases e : q = m.heap.next
    · simp [e]
    · simp only [e, if_false, false_or]; exact h.live q
  · rcases List.mem_cons.1 hq with e | e
    · rw [e]; exact n1
    · exact h.tmpBase q e
  · refine ⟨(h.apart s q hq).1, fun hh => ?_⟩
    rcases List.mem_cons.1 hh with e | e
    · exact n3 s (e ▸ hq)
    · exact (h.apart s q hq).2 e

theorem Spec.LiveIs.malloc (h : LiveIs base T m p) (A : Nat → Bool) :
    ∃ o m', m.malloc A = (o, m') ∧ LiveIs base (o.toList ++ T) m' p ∧ m'.calls = m.calls + 1 ∧
      o.isSome = A m.calls := by
  unfold Mem.malloc
  cases hA : A m.calls
  · exact ⟨none, _, rfl, by simpa using h.calls _, rfl, rfl⟩
  · exact ⟨some m.heap.next, _, rfl, by simpa using h.alloc _, rfl, rfl⟩

theorem Spec.LiveIs.erase {q : Nat} (h : LiveIs base (q :: T) m p) (n : Nat) : LiveIs base T ⟨m.heap.erase q, n⟩ p := by
  have hq := List.nodup_cons.1 h.nodup
  refine ⟨fun r hr => ?_, fun r => ?_, hq.2, fun r hr => h.tmpBase r (List.mem_cons_of_mem _ hr), h.own,
    fun s r hr => ⟨(h.apart s r hr).1, fun hh => (h.apart s r hr).2 (List.mem_cons_of_mem _ hh)⟩⟩
  · simp only [Heap.erase] at hr ⊢
    split
    · rfl
    · exact h.fresh r hr
  · simp only [Heap.erase]
    by_cases e : r = q
    · subst e
      simp only [if_true, ne_eq, not_true_eq_false, false_iff, not_or, not_exists]
      exact ⟨h.tmpBase r List.mem_cons_self, hq.1, fun s hs => (h.apart s r hs).2 List.mem_cons_self⟩
    · simp only [e, if_false]
      rw [h.live r]
      simp [e]

theorem Spec.LiveIs.free {o : Option Nat} (h : LiveIs base (o.toList ++ T) m p) :
    ∃ m', m.free o = .ok m' ∧ LiveIs base T m' p ∧ m'.calls = m.calls := by
  cases o with
  | none => exact ⟨m, rfl, by simpa using h, rfl⟩
  | some q =>
    have hl : m.heap.blk q ≠ none := (h.live q).2 (.inr (.inl (by simp)))
    obtain ⟨u, hu⟩ := Option.ne_none_iff_exists'.1 hl
    exact ⟨⟨m.heap.erase q, m.calls⟩, by simp [Mem.free, Heap.free, hu], LiveIs.erase (by simpa using h) _, rfl⟩

/-- A new block becomes a member. -/
theorem Spec.LiveIs.store {o : Option Nat} {s : Slot} (h : LiveIs base (o.toList ++ T) m p) (hs : p s = none) :
    LiveIs base T m (setSlot p s o) := by
  have hm : ∀ s' q, setSlot p s o s' = some q ↔ (s' = s ∧ o = some q) ∨ p s' = some q := by
    intro s' q
    unfold setSlot
    by_cases e : s' = s
    · subst e; simp [hs]
    · simp [e]
  have hT : ∀ q, o = some q → q ∉ T := by
    rintro q rfl
    exact (List.nodup_cons.1 (by simpa using h.nodup)).1
  refine ⟨h.fresh, fun q => ?_, (List.nodup_append.1 h.nodup).2.1, fun q hq => h.tmpBase q (List.mem_append_right _ hq),
    fun s1 s2 q h1 h2 => ?_, fun s1 q h1 => ?_⟩
  · rw [h.live q]
    simp only [hm, List.mem_append, Option.mem_toList, Option.mem_def]
    constructor
    · rintro (a | (a | a) | ⟨s', a⟩)
      · exact .inl a
      · exact .inr (.inr ⟨s, .inl ⟨rfl, a⟩⟩)
      · exact .inr (.inl a)
      · exact .inr (.inr ⟨s', .inr a⟩)
    · rintro (a | a | ⟨s', ⟨-, a⟩ | a⟩)
      · exact .inl a
      · exact .inr (.inl (.inr a))
      · exact .inr (.inl (.inl a))
      · exact .inr (.inr ⟨s', a⟩)
  · rw [hm] at h1 h2
    rcases h1 with ⟨e1, o1⟩ | h1 <;> rcases h2 with ⟨e2, o2⟩ | h2
    · rw [e1, e2]
    · exact absurd (List.mem_append_left _ (by simp [o1])) (h.apart s2 q h2).2
    · exact absurd (List.mem_append_left _ (by simp [o2])) (h.apart s1 q h1).2
    · exact h.own _ _ _ h1 h2
  · rw [hm] at h1
    rcases h1 with ⟨-, o1⟩ | h1
    · exact ⟨h.tmpBase q (List.mem_append_left _ (by simp [o1])), hT q o1⟩
    · exact ⟨(h.apart s1 q h1).1, fun hh => (h.apart s1 q h1).2 (List.mem_append_right _ hh)⟩

/-- The block of a member becomes a temporary one. -/
theorem Spec.LiveIs.take (h : LiveIs base T m p) (s : Slot) :
    LiveIs base ((p s).toList ++ T) m (setSlot p s none) := by
  have hm : ∀ s' q, setSlot p s none s' = some q ↔ s' ≠ s ∧ p s' = some q := by
    intro s' q
    unfold setSlot
    by_cases e : s' = s <;> simp [e]
  refine ⟨h.fresh, fun q => ?_, ?_, fun q hq => ?_, fun s1 s2 q h1 h2 => ?_, fun s1 q h1 => ?_⟩
  · rw [h.live q]
    simp only [hm, List.mem_append, Option.mem_toList, Option.mem_def]
    constructor
    · rintro (a | a | ⟨s', a⟩)
      · exact .inl a
      · exact .inr (.inl (.inr a))
      · by_cases e : s' = s
        · exact .inr (.inl (.inl (e ▸ a)))
        · exact .inr (.inr ⟨s', e, a⟩)
    · rintro (a | (a | a) | ⟨s', -, a⟩)
      · exact .inl a
      · exact .inr (.inr ⟨s, a⟩)
      · exact .inr (.inl a)
      · exact .inr (.inr ⟨s', a⟩)
  · cases e : p s with
    | none => simpa using h.nodup
    | some q => simpa using ⟨(h.apart s q e).2, h.nodup⟩
  · rcases List.mem_append.1 hq with e | e
    · exact (h.apart s q (by simpa using e)).1
    · exact h.tmpBase q e
  · rw [hm] at h1 h2; exact h.own _ _ _ h1.2 h2.2
  · rw [hm] at h1
    refine ⟨(h.apart s1 q h1.2).1, fun hh => ?_⟩
    rcases List.mem_append.1 hh with e | e
    · exact h1.1 (h.own _ _ _ h1.2 (by simpa using e))
    · exact (h.apart s1 q h1.2).2 e

end

theorem setSlot_self (p : TauPtr) (s : Slot) (v : Option Nat) : setSlot p s v s = v := by simp [setSlot]

theorem setSlot_ne (p : TauPtr) {s s' : Slot} (v : Option Nat) (h : s' ≠ s) : setSlot p s v s' = p s' := by
  simp [setSlot, h]

theorem setSlot_twice (p : TauPtr) (s : Slot) (v w : Option Nat) : setSlot (setSlot p s v) s w = setSlot p s w := by
  funext s'; unfold setSlot; split <;> rfl

/-! ### C62: the window widths -/

section
variable {base : Nat → Prop} {T : List Nat} {m : Mem} {p : TauPtr}

theorem whereCall_cases (h : LiveIs base T m p) (A : Nat → Bool) :
    (whereCall A m = .ub .nullDeref ∧ ∃ i < 3, A (m.calls + i) = false) ∨
    ∃ m' i s r, whereCall A m = .ok (m', i, s, r) ∧ LiveIs base (i :: r :: s :: T) m' p ∧
      m'.calls = m.calls + 3 ∧ ∀ i < 3, A (m.calls + i) = true := by
  unfold whereCall
  obtain ⟨o1, m1, e1, h1, c1, a1⟩ := h.malloc A
  rw [e1]
  cases o1 with
  | none => exact .inl ⟨rfl, 0, by omega, by simpa using a1.symm⟩
  | some i =>
    obtain ⟨o2, m2, e2, h2, c2, a2⟩ := h1.malloc A
    simp only [e2]
    cases o2 with
    | none => exact .inl ⟨rfl, 1, by omega, by rw [← c1]; simpa using a2.symm⟩
    | some s =>
      obtain ⟨o3, m3, e3, h3, c3, a3⟩ := h2.malloc A
      simp only [e3]
      cases o3 with
      | none => exact .inl ⟨rfl, 2, by omega, by
          have : m.calls + 2 = m2.calls := by omega
          rw [this]; simpa using a3.symm⟩
      | some r =>
        refine .inr ⟨m3, i, s, r, rfl, h3.perm ?_, by omega, fun j hj => ?_⟩
        · simp only [Option.toList_some, List.cons_append, List.nil_append]
          calc (r :: s :: i :: T).Perm (r :: i :: s :: T) := (List.Perm.swap _ _ _).cons _
            _ |>.Perm (i :: r :: s :: T) := List.Perm.swap _ _ _
        · have : j = 0 ∨ j = 1 ∨ j = 2 := by omega
          rcases this with rfl | rfl | rfl
          · simpa using a1.symm
          · rw [← c1]; simpa using a2.symm
          · have : m.calls + 2 = m2.calls := by omega
            rw [this]; simpa using a3.symm

theorem whereFree_ok {i r : Nat} (h : LiveIs base (i :: r :: T) m p) :
    ∃ m', whereFree m i r = .ok m' ∧ LiveIs base T m' p ∧ m'.calls = m.calls := by
  obtain ⟨m1, e1, h1, c1⟩ := LiveIs.free (o := some i) (T := r :: T) (by simpa using h)
  obtain ⟨m2, e2, h2, c2⟩ := LiveIs.free (o := some r) (T := T) (by simpa using h1)
  exact ⟨m2, by simp only [whereFree, e1, Res.ok_bind, e2], h2, by omega⟩

theorem gwwBfacMem_cases (h : LiveIs base T m p) (A : Nat → Bool) (P : GwwPlan) (hu : P.used ≠ 0) (w : Option Nat) :
    (gwwBfacMem A P w m = .ub .nullDeref ∧ (w = none ∨ ∃ i < 5, A (m.calls + i) = false)) ∨
    ∃ m' s, gwwBfacMem A P w m = .ok m' ∧ LiveIs base (s :: T) m' p ∧
      m'.calls = m.calls + 5 ∧ ∀ i < 5, A (m.calls + i) = true := by
  unfold gwwBfacMem
  obtain ⟨o1, m1, e1, h1, c1, a1⟩ := h.malloc A
  obtain ⟨o2, m2, e2, h2, c2, a2⟩ := h1.malloc A
  simp only [e1, e2]
  cases o1 with
  | none =>
    rw [if_pos ⟨hu, .inl rfl⟩]
    exact .inl ⟨rfl, .inr ⟨0, by omega, by simpa using a1.symm⟩⟩
  | some al =>
    cases o2 with
    | none =>
      rw [if_pos ⟨hu, .inr rfl⟩]
      exact .inl ⟨rfl, .inr ⟨1, by omega, by rw [← c1]; simpa using a2.symm⟩⟩
    | some pv =>
      rw [if_neg (by simp)]
      rcases whereCall_cases h2 A with ⟨e3, i, hi, hA⟩ | ⟨m3, i, s, r, e3, h3, c3, a3⟩
      · rw [e3]
        exact .inl ⟨rfl, .inr ⟨2 + i, by omega, by rw [← hA]; congr 1; omega⟩⟩
      · rw [e3]
        simp only [Res.ok_bind]
        by_cases hw : P.stored ≠ 0 ∧ w.isNone = true
        · rw [if_pos hw]
          exact .inl ⟨rfl, .inl (by simpa using hw.2)⟩
        · rw [if_neg hw]
          obtain ⟨m4, e4, h4, c4⟩ := LiveIs.free (o := some pv) (T := al :: i :: r :: s :: T) (h3.perm (by
            simp only [Option.toList_some, List.cons_append, List.nil_append]
            have : ([i, r, s] ++ (pv :: al :: T)).Perm ((pv :: al :: T) ++ [i, r, s]) := List.perm_append_comm
            refine this.trans ?_
            simp only [List.cons_append]
            exact ((List.perm_append_comm (l₁ := T) (l₂ := [i, r, s])).cons _).cons _))
          obtain ⟨m5, e5, h5, c5⟩ := LiveIs.free (o := some al) (T := i :: r :: s :: T) (by simpa using h4)
          obtain ⟨m6, e6, h6, c6⟩ := whereFree_ok h5
          refine .inr ⟨m6, s, by simp only [e4, Res.ok_bind, e5, e6], h6, by omega, fun j hj => ?_⟩
          rcases Nat.lt_or_ge j 2 with hj2 | hj2
          · have : j = 0 ∨ j = 1 := by omega
            rcases this with rfl | rfl
            · simpa using a1.symm
            · rw [← c1]; simpa using a2.symm
          · have := a3 (j - 2) (by omega)
            rw [← this]; congr 1; omega

theorem gwwCutMem_cases (h : LiveIs base T m p) (A : Nat → Bool) (P : GwwPlan) (hu : P.used ≠ 0)
    (hx : P.exit ≠ .early) {w : Option Nat} (hw : w.isSome) :
    (gwwCutMem A P w m = .ub .nullDeref ∧ ∃ i < if P.exit = .noLeft then 4 else 7, A (m.calls + i) = false) ∨
    ∃ m' lost, gwwCutMem A P w m = .ok m' ∧ LiveIs base (lost ++ T) m' p ∧
      lost.length = (if P.exit = .noRight then 4 else 2) ∧
      m'.calls = m.calls + (if P.exit = .noLeft then 4 else 7) ∧
      ∀ i < (if P.exit = .noLeft then 4 else 7), A (m.calls + i) = true := by
  unfold gwwCutMem
  obtain ⟨o1, m1, e1, h1, c1, a1⟩ := h.malloc A
  simp only [e1]
  cases o1 with
  | none =>
    rw [if_pos ⟨hu, .inl rfl⟩]
    exact .inl ⟨rfl, 0, by split <;> omega, by simpa using a1.symm⟩
  | some rho =>
    rw [if_neg (by rintro ⟨-, k | k⟩ <;> simp_all)]
    rcases whereCall_cases h1 A with ⟨e2, i, hi, hA⟩ | ⟨m2, i, s, r, e2, h2, c2, a2⟩
    · rw [e2]
      exact .inl ⟨rfl, 1 + i, by split <;> omega, by rw [← hA]; congr 1; omega⟩
    · rw [e2]
      simp only [Res.ok_bind]
      obtain ⟨m3, e3, h3, c3⟩ := whereFree_ok h2
      have a12 : ∀ j < 4, A (m.calls + j) = true := by
        intro j hj
        rcases Nat.eq_zero_or_pos j with rfl | hj0
        · simpa using a1.symm
        · rw [← a2 (j - 1) (by omega)]; congr 1; omega
      by_cases hL : P.exit = .noLeft
      · simp only [hL, if_true]
        exact .inr ⟨m3, [s, rho], e3, by simpa using h3, by simp, by omega, a12⟩
      · simp only [hL, if_false, e3, Res.ok_bind]
        rcases whereCall_cases h3 A with ⟨e4, i', hi', hA'⟩ | ⟨m4, i', s', r', e4, h4, c4, a4⟩
        · rw [e4]
          exact .inl ⟨rfl, 4 + i', by omega, by rw [← hA']; congr 1; omega⟩
        · rw [e4]
          simp only [Res.ok_bind]
          obtain ⟨m5, e5, h5, c5⟩ := LiveIs.free (o := some rho) (T := i' :: r' :: s' :: s :: T) (h4.perm (by
            simp only [Option.toList_some, List.cons_append, List.nil_append]
            exact (List.perm_append_comm (l₁ := [i', r', s', s]) (l₂ := [rho])).append_right T))
          have a7 : ∀ j < 7, A (m.calls + j) = true := by
            intro j hj
            rcases Nat.lt_or_ge j 4 with hj4 | hj4
            · exact a12 j hj4
            · rw [← a4 (j - 4) (by omega)]; congr 1; omega
          rw [e5]
          simp only [Res.ok_bind]
          by_cases hR : P.exit = .noRight
          · simp only [hR, if_true]
            exact .inr ⟨m5, [i', r', s', s], rfl, by simpa using h5, by simp, by omega, by simpa using a7⟩
          · simp only [hR, if_false]
            obtain ⟨m6, e6, h6, c6⟩ := whereFree_ok h5
            exact .inr ⟨m6, [s', s], e6, by simpa using h6, by simp, by omega, a7⟩

/-- The whole function, for at least one point in the range. -/
theorem gwwMem_cases (h : LiveIs base T m p) (A : Nat → Bool) (P : GwwPlan) (hu : P.used ≠ 0)
    (hx : P.exit ≠ .early) (hp : p (.d .w) = none) :
    (gwwMem A P m p = .ub .nullDeref ∧ ∃ i < gwwCalls P, A (m.calls + i) = false) ∨
    ∃ m' w lost, gwwMem A P m p = .ok (m', setSlot p (.d .w) (some w)) ∧
      LiveIs base (lost ++ T) m' (setSlot p (.d .w) (some w)) ∧ lost.length = gwwLost P ∧
      ∀ i < gwwCalls P, A (m.calls + i) = true := by
  unfold gwwMem
  rw [if_neg hx]
  obtain ⟨o1, m1, e1, h1, c1, a1⟩ := h.malloc A
  simp only [e1]
  have hcalls : gwwCalls P = 1 + (if P.bfac then 5 else 0) + (if P.exit = .noLeft then 4 else 7) := by
    unfold gwwCalls
    cases hb : P.bfac <;> cases he : P.exit <;> simp_all
  have hlost : gwwLost P = (if P.exit = .noRight then 4 else 2) + (if P.bfac then 1 else 0) := by
    unfold gwwLost
    cases hb : P.bfac <;> cases he : P.exit <;> simp_all
  cases o1 with
  | none =>
    have hA : A (m.calls + 0) = false := by simpa using a1.symm
    left
    refine ⟨?_, 0, by rw [hcalls]; omega, hA⟩
    cases hb : P.bfac
    · simp only [Bool.false_eq_true, if_false]
      rw [if_pos ⟨hu, rfl⟩]; rfl
    · simp only [if_true]
      rcases gwwBfacMem_cases h1 A P hu none with ⟨e2, -⟩ | ⟨m2, s, e2, h2, -, -⟩
      · rw [e2]; rfl
      · rw [e2]
        simp only [Res.ok_bind]
        unfold gwwCutMem
        obtain ⟨o3, m3, e3, -⟩ := h2.malloc A
        simp only [e3]
        rw [if_pos ⟨hu, .inr rfl⟩]; rfl
  | some w =>
    have hA : A (m.calls + 0) = true := by simpa using a1.symm
    cases hb : P.bfac
    · simp only [Bool.false_eq_true, if_false]
      rw [if_neg (by simp), Res.ok_bind]
      rcases gwwCutMem_cases h1 A P hu hx (w := some w) rfl with ⟨e2, i, hi, k⟩ | ⟨m2, lost, e2, h2, l2, c2, a2⟩
      · rw [e2]
        exact .inl ⟨rfl, 1 + i, by rw [hcalls, hb]; simp only [Bool.false_eq_true, if_false]; omega,
          by rw [← k]; congr 1; omega⟩
      · rw [e2]
        refine .inr ⟨m2, w, lost, rfl, LiveIs.store (T := lost ++ T) (h2.perm ?_) hp,
          by rw [hlost, l2, hb]; rfl, fun j hj => ?_⟩
        · simp only [Option.toList_some, List.cons_append, List.nil_append]
          exact List.perm_middle
        · rw [hcalls, hb] at hj
          simp only [Bool.false_eq_true, if_false] at hj
          rcases Nat.eq_zero_or_pos j with rfl | hj0
          · exact hA
          · rw [← a2 (j - 1) (by omega)]; congr 1; omega
    · simp only [if_true]
      rcases gwwBfacMem_cases h1 A P hu (some w) with ⟨e2, k | ⟨i, hi, k⟩⟩ | ⟨m2, s, e2, h2, c2, a2⟩
      · cases k
      · rw [e2]
        exact .inl ⟨rfl, 1 + i, by rw [hcalls, hb]; simp only [if_true]; omega, by rw [← k]; congr 1; omega⟩
      · rw [e2, Res.ok_bind]
        rcases gwwCutMem_cases h2 A P hu hx (w := some w) rfl with ⟨e3, i, hi, k⟩ | ⟨m3, lost, e3, h3, l3, c3, a3⟩
        · rw [e3]
          exact .inl ⟨rfl, 6 + i, by rw [hcalls, hb]; simp only [if_true]; omega, by rw [← k]; congr 1; omega⟩
        · rw [e3]
          refine .inr ⟨m3, w, s :: lost, rfl, LiveIs.store (T := s :: lost ++ T) (h3.perm ?_) hp,
            by simp only [List.length_cons]; rw [hlost, l3, hb]; rfl, fun j hj => ?_⟩
          · simp only [Option.toList_some, List.cons_append, List.nil_append]
            calc (lost ++ s :: w :: T).Perm (s :: (lost ++ w :: T)) := List.perm_middle
              _ |>.Perm (s :: w :: (lost ++ T)) := List.perm_middle.cons _
              _ |>.Perm (w :: s :: (lost ++ T)) := List.Perm.swap _ _ _
          · rw [hcalls, hb] at hj
            simp only [if_true] at hj
            rcases Nat.eq_zero_or_pos j with rfl | hj0
            · exact hA
            · rcases Nat.lt_or_ge j 6 with hj6 | hj6
              · rw [← a2 (j - 1) (by omega)]; congr 1; omega
              · rw [← a3 (j - 6) (by omega)]; congr 1; omega

/-! ### C62: the drivers -/

theorem mallocBufs_ok (A : Nat → Bool) : ∀ (k : Nat) (T : List Nat) (m : Mem), LiveIs base T m p →
    ∃ bs m', mallocBufs A k m = (bs, m') ∧ LiveIs base (bs.flatMap Option.toList ++ T) m' p
  | 0, _, m, h => ⟨[], m, rfl, by simpa using h⟩
  | k + 1, T, m, h => by
    obtain ⟨o, m1, e1, h1, -, -⟩ := h.malloc A
    obtain ⟨bs, m2, e2, h2⟩ := mallocBufs_ok A k _ m1 h1
    refine ⟨o :: bs, m2, by simp only [mallocBufs, e1, e2], h2.perm ?_⟩
    simp only [List.flatMap_cons, ← List.append_assoc]
    exact List.perm_append_comm.append_right T

theorem freeBufs_ok : ∀ (bs : List (Option Nat)) (T : List Nat) (m : Mem),
    LiveIs base (bs.flatMap Option.toList ++ T) m p → ∃ m', freeBufs bs m = .ok m' ∧ LiveIs base T m' p
  | [], _, m, h => ⟨m, rfl, by simpa using h⟩
  | b :: bs, T, m, h => by
    obtain ⟨m1, e1, h1, -⟩ := LiveIs.free (o := b) (T := bs.flatMap Option.toList ++ T) (by simpa using h)
    obtain ⟨m2, e2, h2⟩ := freeBufs_ok bs T m1 h1
    exact ⟨m2, by simp only [freeBufs, e1, Res.ok_bind, e2], h2⟩

theorem threadsMem_ok (A : Nat → Bool) (k : Nat) : ∀ (n : Nat) (T : List Nat) (m : Mem), LiveIs base T m p →
    ∃ m', threadsMem A k n m = .ok m' ∧ LiveIs base T m' p
  | 0, _, m, h => ⟨m, rfl, h⟩
  | n + 1, T, m, h => by
    obtain ⟨bs, m1, e1, h1⟩ := mallocBufs_ok A k T m h
    obtain ⟨m2, e2, h2⟩ := freeBufs_ok bs T m1 h1
    obtain ⟨m3, e3, h3⟩ := threadsMem_ok A k n T m2 h2
    exact ⟨m3, by simp only [threadsMem, e1, e2, Res.ok_bind, e3], h3⟩

theorem Mem.realloc_ok {x : Nat} (h : LiveIs base (x :: T) m p) (A : Nat → Bool) {z : ZeroRealloc} {n : Nat}
    (hz : z = .nullFreed → n ≠ 0) :
    (∃ m', m.realloc A z x n = .ok (none, m') ∧ LiveIs base (x :: T) m' p) ∨
    ∃ x' m', m.realloc A z x n = .ok (some x', m') ∧ LiveIs base (x' :: T) m' p := by
  have hl : m.heap.blk x ≠ none := (h.live x).2 (.inr (.inl (by simp)))
  obtain ⟨u, hu⟩ := Option.ne_none_iff_exists'.1 hl
  unfold Mem.realloc
  simp only [hu]
  rw [if_neg (fun k => hz k.2 k.1)]
  by_cases h1 : n = 0 ∧ z = .nullKept
  · rw [if_pos h1]; exact .inl ⟨_, rfl, h.calls _⟩
  · rw [if_neg h1]
    cases hA : A m.calls
    · exact .inl ⟨_, rfl, h.calls _⟩
    · refine .inr ⟨m.heap.next, _, rfl, ?_⟩
      exact (h.erase m.calls).alloc _

theorem resizeMem_ok {x w : Nat} (h : LiveIs base (x :: w :: T) m p) (A : Nat → Bool) {z : ZeroRealloc} {n : Nat}
    (hz : z = .nullFreed → n ≠ 0) :
    (∃ m', resizeMem A z n x w m = .ok (m', none) ∧ LiveIs base T m' p) ∨
    ∃ x' w' m', resizeMem A z n x w m = .ok (m', some (x', w')) ∧ LiveIs base (x' :: w' :: T) m' p := by
  unfold resizeMem
  rcases Mem.realloc_ok h A hz with ⟨m1, e1, h1⟩ | ⟨x', m1, e1, h1⟩
  · obtain ⟨m2, e2, h2, -⟩ := LiveIs.free (o := some x) (T := w :: T) (by simpa using h1)
    obtain ⟨m3, e3, h3, -⟩ := LiveIs.free (o := some w) (T := T) (by simpa using h2)
    exact .inl ⟨m3, by simp only [e1, Res.ok_bind, e2, e3], h3⟩
  · rcases Mem.realloc_ok (h1.perm (List.Perm.swap _ _ _)) A hz with ⟨m2, e2, h2⟩ | ⟨w', m2, e2, h2⟩
    · obtain ⟨m3, e3, h3, -⟩ := LiveIs.free (o := some x') (T := w :: T)
        (by simpa using h2.perm (List.Perm.swap _ _ _))
      obtain ⟨m4, e4, h4, -⟩ := LiveIs.free (o := some w) (T := T) (by simpa using h3)
      exact .inl ⟨m4, by simp only [e1, Res.ok_bind, e2, e3, e4], h4⟩
    · exact .inr ⟨x', w', m2, by simp only [e1, Res.ok_bind, e2], h2.perm (List.Perm.swap _ _ _)⟩

theorem resizesMem_ok (A : Nat → Bool) {z : ZeroRealloc} : ∀ (ns : List Nat) (x w : Nat) (m : Mem),
    LiveIs base (x :: w :: T) m p → (z = .nullFreed → ∀ n ∈ ns, n ≠ 0) →
    (∃ m', resizesMem A z ns x w m = .ok (m', none) ∧ LiveIs base T m' p) ∨
    ∃ x' w' m', resizesMem A z ns x w m = .ok (m', some (x', w')) ∧ LiveIs base (x' :: w' :: T) m' p
  | [], x, w, m, h, _ => .inr ⟨x, w, m, rfl, h⟩
  | n :: ns, x, w, m, h, hz => by
    unfold resizesMem
    rcases resizeMem_ok h A (n := n) (fun k => hz k n List.mem_cons_self) with ⟨m1, e1, h1⟩ | ⟨x', w', m1, e1, h1⟩
    · exact .inl ⟨m1, by simp only [e1, Res.ok_bind], h1⟩
    · simp only [e1, Res.ok_bind]
      exact resizesMem_ok A ns x' w' m1 h1 (fun k n' hn' => hz k n' (List.mem_cons_of_mem _ hn'))

theorem halfMem_ok (h : LiveIs base T m p) (A : Nat → Bool) {z : ZeroRealloc} (c : Bool) {ss : List Nat}
    (hz : z = .nullFreed → ∀ n ∈ ss, n ≠ 0) : ∃ m', halfMem A z c ss m = .ok m' ∧ LiveIs base T m' p := by
  unfold halfMem
  obtain ⟨x, m1, e1, h1, -, -⟩ := h.malloc A
  obtain ⟨w, m2, e2, h2, -, -⟩ := h1.malloc A
  have h3 : ∃ o m3, (if c = true then m2.malloc A else (none, m2)) = (o, m3) ∧
      LiveIs base ([x, w, o].flatMap Option.toList ++ T) m3 p := by
    have key : ∀ o : Option Nat, (o.toList ++ (w.toList ++ (x.toList ++ T))).Perm
        ([x, w, o].flatMap Option.toList ++ T) := by
      intro o
      simp only [List.flatMap_cons, List.flatMap_nil, List.append_nil, ← List.append_assoc]
      refine List.Perm.append_right T ?_
      exact ((List.perm_append_comm).append_right _).trans
        ((List.perm_append_comm).trans (by simp only [List.append_assoc]; exact List.Perm.refl _))
    cases c
    · exact ⟨none, m2, rfl, h2.perm (key none)⟩
    · obtain ⟨o, m3, e3, h3, -, -⟩ := h2.malloc A
      exact ⟨o, m3, by simpa using e3, h3.perm (key o)⟩
  obtain ⟨o, m3, e3, h3⟩ := h3
  simp only [e1, e2, e3]
  have hfree := freeBufs_ok [x, w, o] T m3 h3
  cases x with
  | none => exact hfree
  | some x =>
    cases w with
    | none => exact hfree
    | some w =>
      simp only []
      split
      · exact hfree
      · rcases resizesMem_ok A (z := z) ss x w m3 (T := o.toList ++ T) (by simpa using h3) hz with
          ⟨m4, e4, h4⟩ | ⟨x', w', m4, e4, h4⟩
        · obtain ⟨m5, e5, h5, -⟩ := LiveIs.free h4
          exact ⟨m5, by simp only [e4, Res.ok_bind, e5], h5⟩
        · obtain ⟨m5, e5, h5⟩ := freeBufs_ok [some x', some w', o] T m4 (by simpa using h4)
          exact ⟨m5, by simp only [e4, Res.ok_bind, e5], h5⟩

theorem driverMem_ok (h : LiveIs base T m p) (A : Nat → Bool) {z : ZeroRealloc} {P : DriverPlan} (hz : NoZero z P) :
    ∃ m', driverMem A z P m = .ok m' ∧ LiveIs base T m' p := by
  cases P with
  | none => exact ⟨m, rfl, h⟩
  | threads k n => exact threadsMem_ok A k n T m h
  | half c ss => exact halfMem_ok h A c hz
  | fft =>
    obtain ⟨bs, m1, e1, h1⟩ := mallocBufs_ok A 2 T m h
    obtain ⟨m2, e2, h2⟩ := freeBufs_ok bs T m1 h1
    exact ⟨m2, by simp only [driverMem, fftMem, e1, e2], h2⟩

/-! ### C64: creation, Finish, destruction -/

theorem mallocTau_ok (A : Nat → Bool) : ∀ (ss : List Slot) (m : Mem) (p : TauPtr), LiveIs base T m p →
    ∃ m' p' e, mallocTau A ss m p = (m', p', e) ∧ LiveIs base T m' p' ∧ (e = false → HasAll p' ss) ∧
      (∀ s, s ∉ ss → p' s = p s) ∧ ∀ s, (p s).isSome → p' s = p s
  | [], m, p, h => ⟨m, p, false, rfl, h, fun _ s hs => (nomatch hs), fun _ _ => rfl, fun _ _ => rfl⟩
  | s :: ss, m, p, h => by
    unfold mallocTau
    by_cases hs : (p s).isSome = true
    · rw [if_pos hs]
      exact ⟨m, p, true, rfl, h, fun k => (nomatch k), fun _ _ => rfl, fun _ _ => rfl⟩
    · rw [if_neg hs]
      have hn : p s = none := by simpa using hs
      obtain ⟨o, m1, e1, h1, -, -⟩ := h.malloc A
      rw [e1]
      cases o with
      | none =>
        refine ⟨m1, setSlot p s none, true, rfl, LiveIs.store h1 hn, fun k => (nomatch k), fun s' hs' => ?_, fun s' hs' => ?_⟩
        · exact setSlot_ne _ _ (fun e => hs' (e ▸ List.mem_cons_self))
        · exact setSlot_ne _ _ (by rintro rfl; exact hs hs')
      | some q =>
        obtain ⟨m2, p2, e, e2, h2, k1, k2, k3⟩ := mallocTau_ok A ss m1 _ (LiveIs.store h1 hn)
        refine ⟨m2, p2, e, e2, h2, fun he s' hs' => ?_, fun s' hs' => ?_, fun s' hs' => ?_⟩
        · rcases List.mem_cons.1 hs' with rfl | hs'
          · rw [k3 s' (by rw [setSlot_self]; rfl), setSlot_self]; rfl
          · exact k1 he s' hs'
        · rw [k2 s' (fun hh => hs' (List.mem_cons_of_mem _ hh))]
          exact setSlot_ne _ _ (fun e => hs' (e ▸ List.mem_cons_self))
        · have hne : s' ≠ s := by rintro rfl; exact hs hs'
          rw [k3 s' (by rw [setSlot_ne _ _ hne]; exact hs'), setSlot_ne _ _ hne]

theorem finishSlots_cases (A : Nat → Bool) (len : Nat) : ∀ (ss : List Slot) (m : Mem) (p : TauPtr),
    LiveIs base T m p → HasAll p ss →
    (finishSlots A len ss m p = .ub .nullDeref ∧ ∃ n, A n = false) ∨
    ∃ m' p', finishSlots A len ss m p = .ok (m', p') ∧ LiveIs base T m' p'
  | [], m, p, h, _ => .inr ⟨m, p, rfl, h⟩
  | s :: ss, m, p, h, hp => by
    unfold finishSlots finishSlot
    obtain ⟨o, m1, e1, h1, -, a1⟩ := h.malloc A
    simp only [e1]
    have hs := hp s List.mem_cons_self
    by_cases hc : len ≠ 0 ∧ (o.isNone = true ∨ (p s).isNone = true)
    · rw [if_pos hc]
      refine .inl ⟨rfl, m.calls, ?_⟩
      rcases hc.2 with k | k
      · rw [← a1]; simpa using k
      · rw [Option.isNone_iff_eq_none] at k; rw [k] at hs; cases hs
    · rw [if_neg hc]
      obtain ⟨m2, e2, h2, -⟩ := LiveIs.free (h1.take s)
      have h3 := LiveIs.store h2 (setSlot_self _ _ _)
      rw [setSlot_twice] at h3
      simp only [e2, Res.ok_bind]
      by_cases hl : len = 0
      · -- an empty copy may be NULL; then nothing can go wrong any more
        have go : ∀ (ss : List Slot) (m : Mem) (p : TauPtr), LiveIs base T m p →
            ∃ m' p', finishSlots A len ss m p = .ok (m', p') ∧ LiveIs base T m' p' := by
          intro ss
          induction ss with
          | nil => exact fun m p h => ⟨m, p, rfl, h⟩
          | cons s ss ih =>
            intro m p h
            unfold finishSlots finishSlot
            obtain ⟨o, m1, e1, h1, -, -⟩ := h.malloc A
            simp only [e1]
            rw [if_neg (fun k => k.1 hl)]
            obtain ⟨m2, e2, h2, -⟩ := LiveIs.free (h1.take s)
            have h3 := LiveIs.store h2 (setSlot_self _ _ _)
            rw [setSlot_twice] at h3
            simp only [e2, Res.ok_bind]
            exact ih _ _ h3
        exact .inr (go ss m2 _ h3)
      · have ho : o.isSome := by
          cases o with
          | none => exact absurd ⟨hl, .inl rfl⟩ hc
          | some _ => rfl
        exact finishSlots_cases A len ss m2 _ h3 (fun s' hs' => by
          by_cases e : s' = s
          · subst e; rw [setSlot_self]; exact ho
          · rw [setSlot_ne _ _ e]; exact hp s' (List.mem_cons_of_mem _ hs'))

theorem destroyMem_ok : ∀ (ss : List Slot) (m : Mem) (p : TauPtr), LiveIs base T m p →
    ∃ m' p', destroyMem ss m p = .ok (m', p') ∧ LiveIs base T m' p' ∧ (∀ s ∈ ss, p' s = none) ∧
      ∀ s, p s = none → p' s = none
  | [], m, p, h => ⟨m, p, rfl, h, fun s hs => (nomatch hs), fun _ h => h⟩
  | s :: ss, m, p, h => by
    obtain ⟨m1, e1, h1, -⟩ := LiveIs.free (h.take s)
    obtain ⟨m2, p2, e2, h2, k1, k2⟩ := destroyMem_ok ss m1 _ h1
    refine ⟨m2, p2, by simp only [destroyMem, e1, Res.ok_bind, e2], h2, fun s' hs' => ?_, fun s' hs' => k2 s' ?_⟩
    · rcases List.mem_cons.1 hs' with rfl | hs'
      · exact k2 _ (setSlot_self _ _ _)
      · exact k1 s' hs'
    · by_cases e : s' = s
      · rw [e]; exact setSlot_self _ _ _
      · rw [setSlot_ne _ _ e]; exact hs'

theorem perm_swap3 (a b c : List Nat) : (a ++ (b ++ c)).Perm (b ++ (a ++ c)) := by
  rw [← List.append_assoc, ← List.append_assoc]
  exact List.perm_append_comm.append_right c

theorem core_created : ∀ s ∈ coreSlots, s ≠ .c .tOut → s ≠ .d .w → s ∈ createdSlots := by decide

theorem finished_created : ∀ s ∈ finishedSlots false, s ≠ .c .tOut → s ≠ .d .w → s ∈ createdSlots := by decide

theorem cnt_toList (o : Option Nat) : o.toList.length = cnt o := by cases o <;> rfl

theorem HasAll.mono {p p' : TauPtr} {ss : List Slot} (h : HasAll p ss) (k : ∀ s ∈ ss, (p s).isSome → (p' s).isSome) :
    HasAll p' ss := fun s hs => k s hs (h s hs)

theorem reconEnd_cases (h : LiveIs base T m p) (A : Nat → Bool) (P : ReconPlan) {err : Bool}
    (hp : err = false → HasAll p (finishedSlots P.fwd)) :
    (reconEnd A P err m p = .ub .nullDeref ∧ ∃ n, A n = false) ∨
    ∃ m' p', reconEnd A P err m p = .ok (m', p') ∧ LiveIs base T m' p' := by
  unfold reconEnd
  cases err
  · exact finishSlots_cases A P.len _ m p h (hp rfl)
  · exact .inr ⟨m, p, rfl, h⟩

theorem reconFwdMem_cases (h : LiveIs base T m p) (A : Nat → Bool) {z : ZeroRealloc} (P : ReconPlan)
    (hz : NoZero z P.fwdDrv) (hf : P.fwd = true) (hp : HasAll p (finishedSlots false)) :
    (reconFwdMem A z P m p = .ub .nullDeref ∧ ∃ n, A n = false) ∨
    ∃ m' p' lost, reconFwdMem A z P m p = .ok (m', p') ∧ LiveIs base (lost ++ T) m' p' ∧
      lost.length = (if P.fits = true then cnt (p (.c .tFwd)) else cnt (p (.c .tIn))) := by
  unfold reconFwdMem
  obtain ⟨o, m1, e1, h1, -, -⟩ := h.malloc A
  simp only [e1]
  cases hfit : P.fits
  · simp only [Bool.not_false, if_true]
    right
    refine ⟨m1, _, (p (.c .tIn)).toList, rfl, ?_, by simp [cnt_toList]⟩
    have h2 := (h1.take (.c .tIn)).take (.c .tOut)
    rw [setSlot_ne _ _ (by decide : Slot.c .tOut ≠ .c .tIn)] at h2
    have h3 := LiveIs.store (s := .c .tIn) h2 (by
      rw [setSlot_ne _ _ (by decide : Slot.c .tIn ≠ .c .tOut), setSlot_self])
    have h4 := LiveIs.store (s := .c .tOut) (o := o) (T := (p (.c .tIn)).toList ++ T) (h3.perm (by
        rw [← List.append_assoc, ← List.append_assoc]
        exact List.perm_append_comm.append_right T)) (by
      rw [setSlot_ne _ _ (by decide : Slot.c .tOut ≠ .c .tIn), setSlot_self])
    have e : setSlot (setSlot (setSlot (setSlot p (.c .tIn) none) (.c .tOut) none) (.c .tIn) (p (.c .tOut)))
        (.c .tOut) o = setSlot (setSlot p (.c .tIn) (p (.c .tOut))) (.c .tOut) o := by
      funext s
      unfold setSlot
      by_cases k1 : s = .c .tOut <;> by_cases k2 : s = .c .tIn <;> simp [k1, k2]
    rwa [e] at h4
  · simp only [Bool.not_true, Bool.false_eq_true, if_false, if_true]
    have e : setSlot (setSlot (setSlot (setSlot (setSlot p (.c .tIn) (p (.c .tOut))) (.c .tOut) o)
        (.c .tFwd) (setSlot (setSlot p (.c .tIn) (p (.c .tOut))) (.c .tOut) o (.c .tOut)))
        (.c .tOut) (setSlot (setSlot (setSlot p (.c .tIn) (p (.c .tOut))) (.c .tOut) o)
        (.c .tFwd) (setSlot (setSlot p (.c .tIn) (p (.c .tOut))) (.c .tOut) o (.c .tOut)) (.c .tIn)))
        (.c .tIn) (p (.c .tIn)) = setSlot p (.c .tFwd) o := by
      funext s
      unfold setSlot
      by_cases k1 : s = .c .tOut <;> by_cases k2 : s = .c .tIn <;> by_cases k3 : s = .c .tFwd <;> simp [k1, k2, k3]
    rw [e]
    have h2 : ∃ m2, (if P.invErr = true ∨ o.isNone = true then .ok m1 else driverMem A z P.fwdDrv m1 : Res Mem) =
        .ok m2 ∧ LiveIs base (o.toList ++ T) m2 p := by
      split
      · exact ⟨m1, rfl, h1⟩
      · exact driverMem_ok h1 A hz
    obtain ⟨m2, e2, h2⟩ := h2
    simp only [e2, Res.ok_bind]
    have h3 := LiveIs.store (s := .c .tFwd) (o := o) (T := (p (.c .tFwd)).toList ++ T) ((h2.take (.c .tFwd)).perm (by
        rw [← List.append_assoc, ← List.append_assoc]
        exact List.perm_append_comm.append_right T)) (setSlot_self _ _ _)
    rw [setSlot_twice] at h3
    rcases reconEnd_cases h3 A P (err := P.invErr || o.isNone || P.fwdErr) (fun he => by
        have ho : o.isSome := by
          cases o with
          | none => simp at he
          | some _ => rfl
        rw [hf]
        intro s hs
        by_cases k : s = .c .tFwd
        · rw [k, setSlot_self]; exact ho
        · rw [setSlot_ne _ _ k]
          refine hp s ?_
          simp only [finishedSlots, if_true, List.mem_append, List.mem_singleton] at hs
          rcases hs with hs | hs
          · simpa [finishedSlots] using hs
          · exact absurd hs k) with ⟨e4, k⟩ | ⟨m4, p4, e4, h4⟩
    · rw [e4]; exact .inl ⟨rfl, k⟩
    · rw [e4]; exact .inr ⟨m4, p4, _, rfl, h4, cnt_toList _⟩

/-- Everything about `reconMem` for a created object. -/
theorem reconMem_cases (h : LiveIs base T m p) (A : Nat → Bool) {z : ZeroRealloc} (P : ReconPlan)
    (hz1 : NoZero z P.inv) (hz2 : NoZero z P.fwdDrv) (hu : P.gww.used ≠ 0) (hp : HasAll p createdSlots) :
    (reconMem A z P m p = .ub .nullDeref ∧ ∃ n, A n = false) ∨
    ∃ m' p' lost, reconMem A z P m p = .ok (m', p') ∧ LiveIs base (lost ++ T) m' p' ∧
      ∃ out, lost.length = reconLost P p out ∧ ((∀ n, A n = true) → out = true) := by
  unfold reconMem
  cases hc : P.checks
  · exact .inr ⟨m, p, [], rfl, by simpa using h, true, by simp [reconLost, hc], fun _ => rfl⟩
  simp only [Bool.not_true, Bool.false_eq_true, if_false]
  by_cases hw : P.gww.exit ≠ .early ∧ (p (.d .w)).isSome = true
  · rw [if_pos hw]
    refine .inr ⟨m, p, [], rfl, by simpa using h, true, ?_, fun _ => rfl⟩
    unfold reconLost
    rw [if_neg (by rintro ⟨-, k | k⟩; · rw [k] at hw; cases hw.2
                   · exact hw.1 k)]
    rfl
  rw [if_neg hw]
  by_cases hx : P.gww.exit = .early
  · unfold gwwMem
    rw [if_pos hx, Res.ok_bind]
    simp only [hx]
    rw [if_pos (.inl (by decide))]
    refine .inr ⟨m, p, [], rfl, by simpa using h, true, ?_, fun _ => rfl⟩
    simp [reconLost, gwwLost, hx, hc]
  have hpw : p (.d .w) = none := by
    by_contra k
    exact hw ⟨hx, Option.isSome_iff_ne_none.2 k⟩
  rcases gwwMem_cases h A P.gww hu hx hpw with ⟨e1, i, hi, hA⟩ | ⟨m1, w, l1, e1, h1, c1, a1⟩
  · rw [e1]; exact .inl ⟨rfl, _, hA⟩
  rw [e1, Res.ok_bind]
  simp only []
  by_cases hr : P.gww.exit ≠ .late ∨ (!P.range) = true
  · rw [if_pos hr]
    refine .inr ⟨m1, _, l1, rfl, h1, true, ?_, fun _ => rfl⟩
    unfold reconLost
    rw [if_pos ⟨hc, .inl hpw⟩, if_neg (by rintro ⟨k1, k2⟩; rcases hr with k | k; · exact k k1
                                          · rw [k2] at k; cases k), c1, Nat.add_zero]
  rw [if_neg hr]
  have hlate : P.gww.exit = .late ∧ P.range = true := by
    constructor
    · by_contra k; exact hr (.inl k)
    · by_contra k; exact hr (.inr (by simpa using k))
  obtain ⟨o, m2, e2, h2, -, a2⟩ := h1.malloc A
  simp only [e2]
  have h3 := LiveIs.store (s := .c .tOut) (o := o)
    (T := (setSlot p (.d .w) (some w) (.c .tOut)).toList ++ (l1 ++ T)) ((h2.take (.c .tOut)).perm
      (perm_swap3 _ _ _)) (setSlot_self _ _ _)
  rw [setSlot_twice, setSlot_ne _ _ (by decide : Slot.c .tOut ≠ .d .w), ← List.append_assoc] at h3
  by_cases hcore : (coreSlots.any fun s => (setSlot (setSlot p (.d .w) (some w)) (.c .tOut) o s).isNone) = true
  · rw [if_pos hcore]
    have ho : o = none := by
      by_contra k
      obtain ⟨s, hs, hn⟩ := List.any_eq_true.1 hcore
      by_cases k1 : s = .c .tOut
      · rw [k1, setSlot_self, Option.isNone_iff_eq_none] at hn; exact k hn
      · rw [setSlot_ne _ _ k1] at hn
        by_cases k2 : s = .d .w
        · rw [k2, setSlot_self] at hn; cases hn
        · rw [setSlot_ne _ _ k2, Option.isNone_iff_eq_none] at hn
          have := hp s (core_created s hs k1 k2)
          rw [hn] at this; cases this
    refine .inr ⟨m2, _, _, rfl, h3, false, ?_, fun hA => ?_⟩
    · rw [List.length_append, cnt_toList, c1]
      unfold reconLost
      rw [if_pos ⟨hc, .inl hpw⟩, if_pos hlate, if_neg (by simp), Nat.add_zero, Nat.add_comm]
    · rw [ho] at a2; rw [hA] at a2; cases a2
  rw [if_neg hcore]
  have ho : o.isSome := by
    by_contra k
    refine hcore (List.any_eq_true.2 ⟨.c .tOut, by decide, ?_⟩)
    rw [setSlot_self]; simpa using k
  obtain ⟨m4, e4, h4⟩ := driverMem_ok h3 A hz1
  simp only [e4, Res.ok_bind]
  have hall : HasAll (setSlot (setSlot p (.d .w) (some w)) (.c .tOut) o) (finishedSlots false) := by
    intro s hs
    by_cases k1 : s = .c .tOut
    · rw [k1, setSlot_self]; exact ho
    · rw [setSlot_ne _ _ k1]
      by_cases k2 : s = .d .w
      · rw [k2, setSlot_self]; rfl
      · rw [setSlot_ne _ _ k2]
        exact hp s (finished_created s hs k1 k2)
  cases hf : P.fwd
  · simp only [Bool.false_eq_true, if_false]
    rcases reconEnd_cases h4 A P (err := P.invErr) (fun _ => by rw [hf]; exact hall) with ⟨e5, k⟩ | ⟨m5, p5, e5, h5⟩
    · rw [e5]; exact .inl ⟨rfl, k⟩
    · rw [e5]
      refine .inr ⟨m5, p5, _, rfl, h5, true, ?_, fun _ => rfl⟩
      rw [List.length_append, cnt_toList, c1]
      unfold reconLost
      rw [if_pos ⟨hc, .inl hpw⟩, if_pos hlate, if_neg (by simp [hf]), Nat.add_zero, Nat.add_comm]
  · simp only [if_true]
    rcases reconFwdMem_cases h4 A P hz2 hf hall with ⟨e5, k⟩ | ⟨m5, p5, l5, e5, h5, c5⟩
    · rw [e5]; exact .inl ⟨rfl, k⟩
    · rw [e5]
      refine .inr ⟨m5, p5, l5 ++ ((p (.c .tOut)).toList ++ l1), rfl, by simpa using h5, true, ?_, fun _ => rfl⟩
      rw [List.length_append, List.length_append, cnt_toList, c1, c5]
      have hL : reconLost P p true = gwwLost P.gww + (cnt (p (.c .tOut)) +
          (if P.fits = true then cnt (p (.c .tFwd)) else cnt (p (.c .tIn)))) := by
        unfold reconLost
        rw [if_pos ⟨hc, .inl hpw⟩, if_pos hlate, if_pos ⟨rfl, hf⟩]
      rw [hL]
      rw [setSlot_ne _ _ (by decide : Slot.c .tFwd ≠ .c .tOut), setSlot_ne _ _ (by decide : Slot.c .tFwd ≠ .d .w),
        setSlot_ne _ _ (by decide : Slot.c .tIn ≠ .c .tOut), setSlot_ne _ _ (by decide : Slot.c .tIn ≠ .d .w)]
      omega

end

/-! ### C62: the theorems -/

/-- **C62** (window widths; the claim is false) For every data set with a point in the requested range,
every pattern of failing allocations and every exit behind the range checks: if the function returns at
all, then with `gwwLost P ≥ 2` blocks that nobody owns any more; the only intended change is the new
array `w_km_vals`. -/
theorem C62_gww_false {base : Nat → Prop} {T : List Nat} {m m' : Mem} {p p' : TauPtr} (h : LiveIs base T m p)
    (A : Nat → Bool) (P : GwwPlan) (hu : P.used ≠ 0) (hx : P.exit ≠ .early) (hp : p (.d .w) = none)
    (he : gwwMem A P m p = .ok (m', p')) :
    ∃ w lost, p' = setSlot p (.d .w) (some w) ∧ LiveIs base (lost ++ T) m' p' ∧ lost.length = gwwLost P ∧
      2 ≤ lost.length := by
  rcases gwwMem_cases h A P hu hx hp with ⟨e, -⟩ | ⟨m1, w, lost, e, h1, c1, -⟩
  · rw [e] at he; cases he
  · rw [e] at he; cases he
    refine ⟨w, lost, rfl, h1, c1, ?_⟩
    rw [c1]
    unfold gwwLost
    cases k : P.exit
    · exact absurd k hx
    all_goals simp only []
    all_goals omega

/-- **C62** (window widths) No allocation is checked: if one of the `gwwCalls P` calls fails, a NULL pointer
is dereferenced; if all succeed there is no undefined behaviour. -/
theorem C62_gww_unchecked_false {base : Nat → Prop} {T : List Nat} {m : Mem} {p : TauPtr} (h : LiveIs base T m p)
    (A : Nat → Bool) (P : GwwPlan) (hu : P.used ≠ 0) (hx : P.exit ≠ .early) (hp : p (.d .w) = none) :
    ((∃ i < gwwCalls P, A (m.calls + i) = false) → gwwMem A P m p = .ub .nullDeref) ∧
    ((∀ i < gwwCalls P, A (m.calls + i) = true) → ∃ r, gwwMem A P m p = .ok r) := by
  rcases gwwMem_cases h A P hu hx hp with ⟨e, i, hi, k⟩ | ⟨m1, w, lost, e, h1, c1, a1⟩
  · refine ⟨fun _ => e, fun hall => ?_⟩
    rw [hall i hi] at k; cases k
  · refine ⟨fun ⟨i, hi, k⟩ => ?_, fun _ => ⟨_, e⟩⟩
    rw [a1 i hi] at k; cases k

/-- **C62** (drivers) Every driver gives back exactly what it allocated, whatever allocations fail, and
never frees anything else.  Partial: for glibc's `realloc` no window array may be resized to 0 elements,
see `C62_drivers_zero_false`. -/
theorem C62_drivers_partial {base : Nat → Prop} {T : List Nat} {m : Mem} {p : TauPtr} (h : LiveIs base T m p)
    (A : Nat → Bool) (z : ZeroRealloc) (P : DriverPlan) (hz : NoZero z P) :
    ∃ m', driverMem A z P m = .ok m' ∧ LiveIs base T m' p := driverMem_ok h A hz

/-- **C62** (drivers; the claim is false) When the first resize is to 0 elements and `realloc(p, 0)`
releases `p`, the Legendre and the interpolating Newton driver free the array twice. -/
theorem C62_drivers_zero_false {base : Nat → Prop} {T : List Nat} {m : Mem} {p : TauPtr} (h : LiveIs base T m p)
    (c : Bool) (ss : List Nat) : driverMem (fun _ => true) .nullFreed (.half c (0 :: ss)) m = .ub .doubleFree := by
  obtain ⟨x, m1, e1, h1, -, a1⟩ := h.malloc (fun _ => true)
  obtain ⟨w, m2, e2, h2, -, a2⟩ := h1.malloc (fun _ => true)
  cases x with
  | none => cases a1
  | some x =>
    cases w with
    | none => cases a2
    | some w =>
      have key : ∀ m3 : Mem, m3.heap.blk x ≠ none →
          resizesMem (fun _ => true) .nullFreed (0 :: ss) x w m3 = .ub .doubleFree := by
        intro m3 hx
        obtain ⟨u, hu⟩ := Option.ne_none_iff_exists'.1 hx
        simp [resizesMem, resizeMem, Mem.realloc, hu, Mem.free, Heap.free, Heap.erase]
      have hx2 : m2.heap.blk x ≠ none := (h2.live x).2 (.inr (.inl (by simp)))
      unfold driverMem halfMem
      simp only [e1, e2]
      cases c
      · simp only [Bool.false_eq_true, if_false, false_and]
        rw [key m2 hx2]; rfl
      · obtain ⟨o, m3, e3, h3, -, a3⟩ := h2.malloc (fun _ => true)
        have hx3 : m3.heap.blk x ≠ none := (h3.live x).2 (.inr (.inl (by simp)))
        simp only [if_true, e3]
        rw [if_neg (by rw [Option.isSome_iff_ne_none] at a3; cases o <;> simp_all), key m3 hx3]; rfl

/-! ### C64: the theorems -/

/-- **C64** (creation) `Tau_Malloc_Members` leaves an object that owns exactly the new blocks, whatever
allocations fail; without error all 17 members are there. -/
theorem C64_create {base : Nat → Prop} {m : Mem} (h : LiveIs base [] m fun _ => none) (A : Nat → Bool) :
    ∃ m' p e, mallocTau A createdSlots m (fun _ => none) = (m', p, e) ∧ LiveIs base [] m' p ∧
      (e = false → HasAll p createdSlots) ∧ ∀ s, s ∉ createdSlots → p s = none := by
  obtain ⟨m', p, e, e1, h1, k1, k2, -⟩ := mallocTau_ok A createdSlots m _ h
  exact ⟨m', p, e, e1, h1, k1, k2⟩

/-- **C64** (reconstruction) For every data set with a point in the requested range and every pattern of
failing allocations: if `Reconstruction` has no undefined behaviour then the object owns its arrays, each of
them once, and all other blocks are as before except for a list of lost ones, whose exact number is
`reconLost`.  Partial: "nothing is lost" is false, see `C64_false`. -/
theorem C64_recon_partial {base : Nat → Prop} {T : List Nat} {m m' : Mem} {p p' : TauPtr} (h : LiveIs base T m p)
    (A : Nat → Bool) (z : ZeroRealloc) (P : ReconPlan) (hz1 : NoZero z P.inv) (hz2 : NoZero z P.fwdDrv)
    (hu : P.gww.used ≠ 0) (hp : HasAll p createdSlots) (he : reconMem A z P m p = .ok (m', p')) :
    ∃ lost, LiveIs base (lost ++ T) m' p' ∧
      ∃ out, lost.length = reconLost P p out ∧ ((∀ n, A n = true) → out = true) := by
  rcases reconMem_cases h A P hz1 hz2 hu hp with ⟨e, -⟩ | ⟨m1, p1, lost, e, h1, c1⟩
  · rw [e] at he; cases he
  · rw [e] at he; cases he; exact ⟨lost, h1, c1⟩

/-- **C64** (reconstruction) No double free, no use after free and no NULL pointer as long as all
allocations succeed. -/
theorem C64_recon_safe {base : Nat → Prop} {T : List Nat} {m : Mem} {p : TauPtr} (h : LiveIs base T m p)
    (z : ZeroRealloc) (P : ReconPlan) (hz1 : NoZero z P.inv) (hz2 : NoZero z P.fwdDrv) (hu : P.gww.used ≠ 0)
    (hp : HasAll p createdSlots) : ∃ r, reconMem (fun _ => true) z P m p = .ok r := by
  rcases reconMem_cases h (fun _ => true) P hz1 hz2 hu hp with ⟨-, n, k⟩ | ⟨m1, p1, lost, e, -⟩
  · cases k
  · exact ⟨_, e⟩

/-- **C64** (destruction) Every array of the object is released, once; nothing else is. -/
theorem C64_destroy {base : Nat → Prop} {T : List Nat} {m : Mem} {p : TauPtr} (h : LiveIs base T m p) :
    ∃ m', destroyMem destroyedSlots m p = .ok (m', fun _ => none) ∧ LiveIs base T m' fun _ => none := by
  obtain ⟨m', p', e, h', k, -⟩ := destroyMem_ok destroyedSlots m p h
  have : p' = fun _ => none := by
    funext s
    refine k s ?_
    rcases s with s | s <;> cases s <;> decide
  rw [this] at e h'
  exact ⟨m', e, h'⟩

/-- Creation, reconstruction, destruction. -/
def lifeMem (A : Nat → Bool) (z : ZeroRealloc) (P : ReconPlan) (m : Mem) : Res (Mem × TauPtr) := do
  let (m, p, e) := mallocTau A createdSlots m fun _ => none
  let (m, p) ← (if e then .ok (m, p) else reconMem A z P m p : Res (Mem × TauPtr))
  destroyMem destroyedSlots m p

/-- **C64** The whole life of an object when all allocations succeed: afterwards the live blocks are those
from before plus the blocks lost by `Get_Window_Width` plus, when the range is too small for forward
modelling, the old `T_in`.  Partial: nothing should be lost. -/
theorem C64_life_partial {base : Nat → Prop} {m : Mem} (h : LiveIs base [] m fun _ => none) (z : ZeroRealloc)
    (P : ReconPlan) (hz1 : NoZero z P.inv) (hz2 : NoZero z P.fwdDrv) (hu : P.gww.used ≠ 0) :
    ∃ m' lost, lifeMem (fun _ => true) z P m = .ok (m', fun _ => none) ∧
      LiveIs base lost m' (fun _ => none) ∧
      lost.length = (if P.checks = true then
        gwwLost P.gww + (if P.gww.exit = .late ∧ P.range = true ∧ P.fwd = true ∧ P.fits = false then 1 else 0)
        else 0) := by
  obtain ⟨m1, p1, e, e1, h1, k1, k2⟩ := C64_create h (fun _ => true)
  have he : e = false := by
    have gen : ∀ (ss : List Slot) (m : Mem) (p : TauPtr), ss.Nodup → (∀ s ∈ ss, p s = none) →
        (mallocTau (fun _ => true) ss m p).2.2 = false := by
      intro ss
      induction ss with
      | nil => intros; rfl
      | cons s ss ih =>
        intro m p hn hs
        unfold mallocTau
        rw [if_neg (by rw [hs s List.mem_cons_self]; simp)]
        simp only [Mem.malloc, if_true]
        refine ih _ _ (List.nodup_cons.1 hn).2 (fun s' hs' => ?_)
        rw [setSlot_ne _ _ (by rintro rfl; exact (List.nodup_cons.1 hn).1 hs')]
        exact hs s' (List.mem_cons_of_mem _ hs')
    have := gen createdSlots m (fun _ => none) (by decide) (fun _ _ => rfl)
    rw [e1] at this; exact this
  subst he
  have hall := k1 rfl
  obtain ⟨⟨m2, p2⟩, e2⟩ := C64_recon_safe h1 z P hz1 hz2 hu hall
  obtain ⟨lost, h2, out, c2, o2⟩ := C64_recon_partial h1 _ z P hz1 hz2 hu hall e2
  obtain ⟨m3, e3, h3⟩ := C64_destroy h2
  refine ⟨m3, lost, ?_, by simpa using h3, ?_⟩
  · simp only [lifeMem, e1, Bool.false_eq_true, if_false, e2, Res.ok_bind, e3]
  · rw [c2, o2 (fun _ => rfl)]
    have n1 : p1 (.d .w) = none := k2 _ (by decide)
    have n2 : p1 (.c .tOut) = none := k2 _ (by decide)
    have n3 : p1 (.c .tFwd) = none := k2 _ (by decide)
    have n4 : cnt (p1 (.c .tIn)) = 1 := by
      have := hall (.c .tIn) (by decide)
      simp [cnt, this]
    unfold reconLost
    rw [n1, n2, n3, n4]
    cases P.checks <;> cases hl : P.gww.exit <;> cases P.range <;> cases P.fwd <;> cases P.fits <;> simp [cnt]

/-- **C64** (the claim is false) Whenever the window widths are computed, blocks are lost: the live blocks
after the destruction of the object are not those from before its creation. -/
theorem C64_false {base : Nat → Prop} {m : Mem} (h : LiveIs base [] m fun _ => none) (z : ZeroRealloc)
    (P : ReconPlan) (hz1 : NoZero z P.inv) (hz2 : NoZero z P.fwdDrv) (hu : P.gww.used ≠ 0) (hc : P.checks = true)
    (hx : P.gww.exit ≠ .early) :
    ∃ m' p', lifeMem (fun _ => true) z P m = .ok (m', p') ∧
      ∃ q, m.heap.blk q = none ∧ m'.heap.blk q ≠ none := by
  obtain ⟨m', lost, e, h', c⟩ := C64_life_partial h z P hz1 hz2 hu
  refine ⟨m', _, e, ?_⟩
  have : lost ≠ [] := by
    rintro rfl
    rw [if_pos hc] at c
    have : gwwLost P.gww ≠ 0 := by
      unfold gwwLost
      cases k : P.gww.exit
      · exact absurd k hx
      all_goals simp
    simp only [List.length_nil] at c
    omega
  obtain ⟨q, l, rfl⟩ := List.exists_cons_of_ne_nil this
  refine ⟨q, ?_, (h'.live q).2 (.inr (.inl List.mem_cons_self))⟩
  by_contra k
  rcases (h.live q).1 k with k | k | ⟨s, k⟩
  · exact h'.tmpBase q List.mem_cons_self k
  · cases k
  · cases k

/-! ### Examples -/

/-- An empty heap. -/
def emptyMem : Mem := ⟨⟨fun _ => none, 0⟩, 0⟩

theorem emptyMem_live : LiveIs (fun _ => False) [] emptyMem fun _ => none :=
  ⟨fun _ _ => rfl, fun q => by simp [emptyMem], List.nodup_nil, by simp, by simp, by simp⟩

/-- A normal run: window widths with `bfac`, Newton method with four threads, forward modelling. -/
def normalPlan : ReconPlan :=
  { checks := true, gww := ⟨.late, true, 100, 100⟩, range := true, inv := .threads 1 4, invErr := false, fwd := true,
    fits := true, fwdDrv := .threads 1 4, fwdErr := false, len := 90 }

/-- A Legendre run with resized windows whose range is too small for forward modelling. -/
def tooSmallPlan : ReconPlan :=
  { normalPlan with
    inv := .half true [5, 7, 6]
    fits := false }

/-- Three blocks are lost in a normal run. -/
example : ∃ m' lost, lifeMem (fun _ => true) .nullFreed normalPlan emptyMem = .ok (m', fun _ => none) ∧
    LiveIs (fun _ => False) lost m' (fun _ => none) ∧ lost.length = 3 :=
  C64_life_partial emptyMem_live .nullFreed normalPlan trivial trivial (by decide)

/-- Four blocks are lost when forward modelling is impossible. -/
example : ∃ m' lost, lifeMem (fun _ => true) .nullFreed tooSmallPlan emptyMem = .ok (m', fun _ => none) ∧
    LiveIs (fun _ => False) lost m' (fun _ => none) ∧ lost.length = 4 :=
  C64_life_partial emptyMem_live .nullFreed tooSmallPlan (fun _ => by decide) trivial (by decide)

example : ∃ m' p', lifeMem (fun _ => true) .nullFreed normalPlan emptyMem = .ok (m', p') ∧
    ∃ q, emptyMem.heap.blk q = none ∧ m'.heap.blk q ≠ none :=
  C64_false emptyMem_live .nullFreed normalPlan trivial trivial (by decide) rfl (by decide)

/-- The third allocation fails: NULL dereference. -/
example : gwwMem (fun n => n != 2) normalPlan.gww emptyMem (fun _ => none) = .ub .nullDeref :=
  (C62_gww_unchecked_false emptyMem_live _ normalPlan.gww (by decide) (by decide) rfl).1 ⟨2, by decide, by decide⟩

/-- A Legendre driver whose second `realloc` fails gives everything back. -/
example : ∃ m', driverMem (fun n => n != 4) .nullFreed (.half true [5, 7]) emptyMem = .ok m' ∧
    LiveIs (fun _ => False) [] m' fun _ => none :=
  C62_drivers_partial emptyMem_live _ _ _ (fun _ => by decide)

/-- The interpolating Newton driver with an empty first window. -/
example : driverMem (fun _ => true) .nullFreed (.half false [0, 3]) emptyMem = .ub .doubleFree :=
  C62_drivers_zero_false emptyMem_live false [3]

/-- Creation when the 6th allocation fails. -/
example : ∃ m' p e, mallocTau (fun n => n != 5) createdSlots emptyMem (fun _ => none) = (m', p, e) ∧
    LiveIs (fun _ => False) [] m' p ∧ (e = false → HasAll p createdSlots) ∧ ∀ s, s ∉ createdSlots → p s = none :=
  C64_create emptyMem_live _

/-- The failure is seen. -/
example : (mallocTau (fun n => n != 5) createdSlots emptyMem fun _ => none).2.2 = true := by decide +kernel

/-- An object that owns block 0, on a heap that also holds the foreign block 1, destroyed. -/
example : ∃ m', destroyMem destroyedSlots ⟨⟨fun q => if q < 2 then some () else none, 2⟩, 2⟩
      (fun s => if s = .d .w then some 0 else none) = .ok (m', fun _ => none) ∧
    LiveIs (fun q => q = 1) [] m' fun _ => none := by
  refine C64_destroy ⟨fun q hq => if_neg (by simp only at hq; omega), fun q => ?_, List.nodup_nil, by simp, ?_, ?_⟩
  · constructor
    · intro h
      have : q < 2 := by
        by_contra k
        exact h (if_neg k)
      rcases q with _ | _ | q
      · exact .inr (.inr ⟨.d .w, rfl⟩)
      · exact .inl rfl
      · omega
    · rintro (rfl | h | ⟨s, h⟩)
      · simp
      · cases h
      · split at h
        · cases h; simp
        · cases h
  all_goals grind

end Verif
