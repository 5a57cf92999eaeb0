import Verif.Model.Heap
import Verif.Proofs.Frame
import Verif.Props.C34

/-!
# C15 Destroying a tau object, C16 resizing the window arrays
-/
namespace Verif

namespace Spec

/-- The tau object at address `a` owns its arrays: every pointer member that is not
NULL points to a live block of its own, and the object itself is live. -/
structure Owns (h : Heap Block) (a : Nat) (m : Slot → Option Nat) : Prop where
  self : h.blk a = some (.tau m)
  live : ∀ s p, m s = some p → p ≠ a ∧ (h.blk p).isSome
  own : ∀ s s' p, m s = some p → m s' = some p → s = s'

end Spec
open Spec

/-! ### C15 -/

theorem freeSlots_ok (a : Nat) : ∀ (ss : List Slot) (h : Heap Block) (m : Slot → Option Nat),
    h.blk a = some (.tau m) → (∀ s p, m s = some p → p ≠ a ∧ (h.blk p).isSome) →
    (∀ s s' p, m s = some p → m s' = some p → s = s') →
    ∃ h', freeSlots a ss h = .ok h' ∧
      h'.blk a = some (.tau fun s => if s ∈ ss then none else m s) ∧
      (∀ p, p ≠ a → ((∃ s ∈ ss, m s = some p) → h'.blk p = none) ∧
        ((¬ ∃ s ∈ ss, m s = some p) → h'.blk p = h.blk p)) ∧ h'.next = h.next
  | [], h, m, h1, _, _ => ⟨h, rfl, by simpa using h1, fun p _ => ⟨by simp, fun _ => rfl⟩, rfl⟩
  | s :: ss, h, m, h1, h2, h3 => by
    have step : ∃ g : Heap Block, freeSlot a s h = .ok (g.put a (.tau fun s' => if s' = s then none else m s')) ∧
        (∀ p, p ≠ a → g.blk p = if m s = some p then none else h.blk p) ∧ g.next = h.next := by
      cases e : m s with
      | none => exact ⟨h, by simp [freeSlot, Heap.get, Heap.free, h1, e], fun p _ => by simp, rfl⟩
      | some p =>
        obtain ⟨hp, hl⟩ := h2 s p e
        obtain ⟨b, hb⟩ := Option.isSome_iff_exists.1 hl
        refine ⟨h.erase p, by simp [freeSlot, Heap.get, Heap.free, h1, e, hb], fun q _ => ?_, rfl⟩
        by_cases hq : q = p
        · simp [Heap.erase, hq]
        · simp [Heap.erase, hq, Ne.symm hq]
    obtain ⟨g, e, hg, hn⟩ := step
    obtain ⟨h', e', k1, k2, k3⟩ := freeSlots_ok a ss
      (g.put a (.tau fun s' => if s' = s then none else m s'))
      (fun s' => if s' = s then none else m s') (by simp [Heap.put])
      (fun s' p hp => by
        split at hp
        · cases hp
        · rename_i hs
          obtain ⟨q1, q2⟩ := h2 s' p hp
          refine ⟨q1, ?_⟩
          have : m s ≠ some p := fun hh => hs (h3 _ _ _ hp hh)
          simp only [Heap.put, q1, if_false, hg p q1, this, q2])
      (fun s1 s2 p hp hq => by
        split at hp
        · cases hp
        · split at hq
          · cases hq
          · exact h3 _ _ _ hp hq)
    refine ⟨h', by rw [freeSlots, e]; exact e', ?_, fun p hp => ⟨?_, fun hno => ?_⟩, ?_⟩
    · rw [k1]; congr 2; funext s'
      by_cases q1 : s' = s <;> by_cases q2 : s' ∈ ss <;> simp [q1, q2]
    · rintro ⟨s', hs', hm⟩
      by_cases hex : ∃ s1 ∈ ss, (if s1 = s then none else m s1) = some p
      · exact (k2 p hp).1 hex
      · rw [(k2 p hp).2 hex]
        have : s' = s := by
          rcases List.mem_cons.1 hs' with q | q
          · exact q
          · by_contra hne
            exact hex ⟨s', q, by rw [if_neg hne]; exact hm⟩
        subst this
        simp [Heap.put, hp, hg p hp, hm]
    · rw [(k2 p hp).2 ?_]
      · have : m s ≠ some p := fun hh => hno ⟨s, List.mem_cons_self, hh⟩
        simp [Heap.put, hp, hg p hp, this]
      · rintro ⟨s1, q1, q2⟩
        split at q2
        · cases q2
        · exact hno ⟨s1, List.mem_cons_of_mem _ q1, q2⟩
    · rw [k3]; exact hn

/-- Every owning member is released. -/
theorem mem_destroyedSlots (s : Slot) : s ∈ destroyedSlots := by
  rcases s with s | s <;> cases s <;> decide

/-- **C15** Every one of the 21 arrays is released, exactly once (a second release of the
same block would be undefined), all pointer members become NULL, and nothing else changes. -/
theorem C15_members {h : Heap Block} {a : Nat} {m : Slot → Option Nat} (ho : Owns h a m) :
    ∃ h', destroyMembers (some a) h = .ok h' ∧ h'.blk a = some (.tau fun _ => none) ∧
      (∀ s p, m s = some p → h'.blk p = none) ∧
      ∀ p, p ≠ a → (∀ s, m s ≠ some p) → h'.blk p = h.blk p := by
  obtain ⟨h', e, k1, k2, _⟩ := freeSlots_ok a destroyedSlots h m ho.self ho.live ho.own
  refine ⟨h', e, ?_, fun s p hp => ?_, fun p hp hno => ?_⟩
  · simpa only [mem_destroyedSlots, if_true] using k1
  · exact (k2 p (ho.live s p hp).1).1 ⟨s, mem_destroyedSlots s, hp⟩
  · exact (k2 p hp).2 fun ⟨s, _, hs⟩ => hno s hs

/-- `Destroy_Members` any number of times. -/
def destroyTimes (tau : Option Nat) : Nat → Heap Block → Res (Heap Block)
  | 0, h => .ok h
  | n + 1, h => do
    let h ← destroyMembers tau h
    destroyTimes tau n h

/-- **C15** `Destroy_Members` may be called any number of times: further calls succeed and
change nothing (the same blocks are live). -/
theorem C15_repeat {h : Heap Block} {a : Nat} {m : Slot → Option Nat} (ho : Owns h a m) (n : Nat) :
    ∃ h' h'', destroyMembers (some a) h = .ok h' ∧ destroyTimes (some a) (n + 1) h = .ok h'' ∧
      ∀ p, h''.blk p = h'.blk p := by
  obtain ⟨h', e, k1, k2, k3⟩ := C15_members ho
  refine ⟨h', ?_⟩
  have : ∀ n (g : Heap Block), g.blk a = some (.tau fun _ => none) →
      ∃ g', destroyTimes (some a) n g = .ok g' ∧ ∀ p, g'.blk p = g.blk p := by
    intro n
    induction n with
    | zero => exact fun g _ => ⟨g, rfl, fun _ => rfl⟩
    | succ n ih =>
      intro g hg
      obtain ⟨g', e', q1, _, q3⟩ := C15_members (h := g) (a := a) (m := fun _ => none)
        ⟨hg, fun _ _ h => (nomatch h), fun _ _ _ h => (nomatch h)⟩
      obtain ⟨g'', e'', q⟩ := ih g' q1
      refine ⟨g'', by rw [destroyTimes, e']; exact e'', fun p => (q p).trans ?_⟩
      by_cases hp : p = a
      · rw [hp, q1, hg]
      · exact q3 p hp (fun _ h => (nomatch h))
  obtain ⟨h'', e'', q⟩ := this n h' k1
  exact ⟨h'', e, by rw [destroyTimes, e]; exact e'', q⟩

/-- **C15** (without the last clause) `Tau_Destroy` releases the arrays and the object,
leaves everything else alone and never has undefined behaviour.  Missing: the caller's
pointer is not set to NULL, see `C15_false`. -/
theorem C15_destroy_partial {h : Heap Block} {a : Nat} {m : Slot → Option Nat} (ho : Owns h a m) :
    ∃ v h', tauDestroy (some (some a)) h = .ok (v, h') ∧ h'.blk a = none ∧
      (∀ s p, m s = some p → h'.blk p = none) ∧
      ∀ p, p ≠ a → (∀ s, m s ≠ some p) → h'.blk p = h.blk p := by
  obtain ⟨h', e, k1, k2, k3⟩ := C15_members ho
  refine ⟨some (some a), h'.erase a, ?_, by simp [Heap.erase], fun s p hp => ?_, fun p hp hno => ?_⟩
  · rw [tauDestroy, e, Res.ok_bind, Heap.free, k1]; rfl
  · simp [Heap.erase, k2 s p hp]
  · simp [Heap.erase, hp, k3 p hp hno]

/-- **C15** is false in its last clause, for every tau object: after `Tau_Destroy` the
caller's pointer still holds the old address, and a second call accesses freed memory. -/
theorem C15_false {h : Heap Block} {a : Nat} {m : Slot → Option Nat} (ho : Owns h a m) :
    ∃ h', tauDestroy (some (some a)) h = .ok (some (some a), h') ∧
      tauDestroy (some (some a)) h' = .ub .useAfterFree := by
  obtain ⟨h', e, k1, k2, k3⟩ := C15_members ho
  refine ⟨h'.erase a, ?_, ?_⟩
  · rw [tauDestroy, e, Res.ok_bind, Heap.free, k1]; rfl
  · have : freeSlot a (.d .rho) (h'.erase a) = .ub .useAfterFree := by
      simp [freeSlot, Heap.get, Heap.erase]
    rw [tauDestroy, destroyMembers, destroyedSlots, freeSlots, this]
    rfl

/-- **C15** NULL, at either level, is accepted and nothing is released. -/
theorem C15_null (h : Heap Block) : destroyMembers none h = .ok h ∧
    tauDestroy none h = .ok (none, h) ∧ tauDestroy (some none) h = .ok (some none, h) :=
  ⟨rfl, rfl, rfl⟩

/-- **C15** Ownership cannot be dropped from the hypotheses: two members that share one
array are a double free. -/
theorem C15_shared_false :
    ¬ ∀ (h : Heap Block) (a : Nat) (m : Slot → Option Nat), h.blk a = some (.tau m) →
      (∀ s p, m s = some p → p ≠ a ∧ (h.blk p).isSome) → (destroyMembers (some a) h).Safe := by
  intro hall
  let m : Slot → Option Nat := fun s => if s = .d .rho ∨ s = .d .F then some 1 else none
  obtain ⟨x, hx⟩ := hall ⟨fun p => if p = 0 then some (.tau m) else if p = 1 then some .data else none, 2⟩
    0 m rfl (fun s p hp => by
      simp only [m] at hp
      split at hp
      · cases hp; exact ⟨by omega, rfl⟩
      · cases hp)
  have : destroyMembers (some 0)
    ⟨fun p => if p = 0 then some (.tau m) else if p = 1 then some .data else none, 2⟩ = .ub .doubleFree := by rfl
  rw [this] at hx
  cases hx

/-- A tau object at address 5 with two arrays (at 1 and 2), and a foreign block at 9. -/
def heapExample : Heap Block :=
  ⟨fun p => if p = 5 then some (.tau fun s => if s = .d .rho then some 1 else
      if s = .c .tIn then some 2 else none) else
    if p = 1 ∨ p = 2 ∨ p = 9 then some .data else none, 10⟩

theorem heapExample_owns : Owns heapExample 5
    (fun s => if s = .d .rho then some 1 else if s = .c .tIn then some 2 else none) := by
  refine ⟨rfl, fun s p h => ?_, fun s s' p h h' => ?_⟩
  · split at h
    · cases h; exact ⟨by omega, rfl⟩
    · split at h
      · cases h; exact ⟨by omega, rfl⟩
      · cases h
  · by_cases a1 : s = .d .rho <;> by_cases a2 : s = .c .tIn <;> by_cases b1 : s' = .d .rho <;>
      by_cases b2 : s' = .c .tIn <;> simp_all <;> omega

/-- The hypotheses are met by an object with two arrays; both are released, the foreign
block is not. -/
example : ∃ v h', tauDestroy (some (some 5)) heapExample = .ok (v, h') ∧ h'.blk 5 = none ∧
    h'.blk 1 = none ∧ h'.blk 2 = none ∧ (h'.blk 9).isSome := by
  obtain ⟨v, h', e, k1, k2, k3⟩ := C15_destroy_partial heapExample_owns
  refine ⟨v, h', e, k1, k2 (.d .rho) 1 rfl, k2 (.c .tIn) 2 rfl, ?_⟩
  rw [k3 9 (by omega)]
  · rfl
  · intro s h
    split at h
    · cases h
    · split at h <;> cases h

/-- The same object shows `C15_false` and `C15_repeat`. -/
example : (∃ h', tauDestroy (some (some 5)) heapExample = .ok (some (some 5), h') ∧
    tauDestroy (some (some 5)) h' = .ub .useAfterFree) ∧
    ∃ h' h'', destroyMembers (some 5) heapExample = .ok h' ∧
      destroyTimes (some 5) 3 heapExample = .ok h'' ∧ ∀ p, h''.blk p = h'.blk p :=
  ⟨C15_false heapExample_owns, C15_repeat heapExample_owns 2⟩

/-! ### C16 -/

theorem resetWindow_runs {N : Num Dbl Cpx} (sq : Bool) {t : TauD} {wc : Dbl} {nw c : Nat}
    {x w : List Dbl} (hc : rdP (t.arr .w) c = .ok wc) (hx : nw ≤ x.length) (hw : nw ≤ w.length) :
    ∃ b, resetWindow N sq t nw c (x, w) = .ok b := by
  unfold resetWindow
  obtain ⟨b, e, _⟩ := forRange_total (fun (_ : Nat) (b : List Dbl × List Dbl) =>
    b.1.length = x.length ∧ b.2.length = w.length) (resetLoop N sq t nw c) nw 0 (x, w) ⟨rfl, rfl⟩
    (fun n b _ hn hl => by
      rw [resetLoop, wr_lt (by omega), Res.ok_bind, hc, Res.ok_bind, wr_lt (by omega), Res.ok_bind,
        wr_lt (by rw [List.length_set]; omega), Res.ok_bind]
      exact ⟨_, rfl, by simpa using hl.1, by simpa using hl.2⟩)
  exact ⟨b, e⟩

theorem holdsHalf_unique {N : Num Dbl Cpx} {sq : Bool} {t : TauD} {nw c : Nat}
    {x x' w w' : List Dbl} (h : HoldsHalf N sq t nw c x w) (h' : HoldsHalf N sq t nw c x' w')
    (e1 : x.length = nw) (e2 : x'.length = nw) (e3 : w.length = nw) (e4 : w'.length = nw) :
    x = x' ∧ w = w' := by
  constructor <;> apply List.ext_getElem? <;> intro j
  · by_cases hj : j < nw
    · obtain ⟨_, _, a, _⟩ := h.2.2 j hj
      obtain ⟨_, _, a', _⟩ := h'.2.2 j hj
      rw [a, a']
    · rw [List.getElem?_eq_none (by omega), List.getElem?_eq_none (by omega)]
  · by_cases hj : j < nw
    · obtain ⟨_, q, _, a⟩ := h.2.2 j hj
      obtain ⟨_, q', _, a'⟩ := h'.2.2 j hj
      rw [q] at q'
      cases q'
      rw [a, a']
    · rw [List.getElem?_eq_none (by omega), List.getElem?_eq_none (by omega)]

theorem resizeBuf_length (l : List Dbl) (n : Nat) : (resizeBuf l n).length = n := by
  simp [resizeBuf, rawBuf]; omega

namespace Spec

/-- Both arrays were replaced by arrays of exactly `nw` entries that hold the displacements
and the window of row `center`; the old arrays are gone and no other block changed. -/
structure Renewed (N : Num Dbl Cpx) (t : TauD) (nw center x w : Nat) (h : Heap (List Dbl))
    (r : Resized) : Prop where
  ret : r.ret = 1
  tau : r.tau = t
  blocks : ∃ x' w' bx bw, r.x = some x' ∧ r.w = some w' ∧ x' ≠ w' ∧ h.blk x' = none ∧
    h.blk w' = none ∧ r.heap.blk x' = some bx ∧ r.heap.blk w' = some bw ∧
    bx.length = nw ∧ bw.length = nw ∧ HoldsHalf N false t nw center bx bw ∧
    ∀ p, p ≠ x' → p ≠ w' → r.heap.blk p = if p = x ∨ p = w then none else h.blk p

/-- An error was set, both arrays were released, the caller's pointers are NULL and no other
block changed. -/
structure CleanFail (t : TauD) (x w : Nat) (h : Heap (List Dbl)) (r : Resized) : Prop where
  ret : r.ret = 1
  tau : ∃ line, r.tau = t.fail .resizeHalfWindow line
  ptrs : r.x = none ∧ r.w = none
  blocks : ∀ p, r.heap.blk p = if p = x ∨ p = w then none else h.blk p

end Spec

theorem free_live {α : Type} {h : Heap α} {p : Nat} (hp : (h.blk p).isSome) :
    h.free (some p) = .ok (h.erase p) := by
  obtain ⟨a, e⟩ := Option.isSome_iff_exists.1 hp
  simp [Heap.free, e]

/-- The outcome of one `realloc`. -/
theorem realloc_cases {h : Heap (List Dbl)} {z : ZeroRealloc} {good : Bool} {p n : Nat} {l : List Dbl}
    (hp : h.blk p = some l) (h0 : n = 0 → z ≠ .nullFreed) :
    (good = true ∧ (n = 0 → z = .block) ∧ h.realloc z good p n = .ok (some h.next,
      ((h.erase p).alloc (resizeBuf l n)).2)) ∨
    (¬ (good = true ∧ (n = 0 → z = .block)) ∧ h.realloc z good p n = .ok (none, h)) := by
  unfold Heap.realloc
  rw [hp]
  simp only []
  by_cases hn : n = 0
  · have := h0 hn
    cases z <;> cases good <;> simp_all [Heap.alloc, Heap.erase]
  · cases good <;> simp_all [Heap.alloc, Heap.erase]

/-- **C16** (without `realloc(p, 0)` on systems where that releases `p`) Whatever the two
`realloc` calls answer: nothing happens if the width did not change by `two_dx` or more;
otherwise both arrays are renewed if both calls succeed, and released with a clean error if
not.  Missing: `nw_pts = 0` with a `realloc` that releases the block, see `C16_false`. -/
theorem C16_partial (N : Num Dbl Cpx) {z : ZeroRealloc} (good1 good2 : Bool) {width twoDx wc : Dbl}
    {center nw x w : Nat} {t : TauD} {h : Heap (List Dbl)} (he : t.err = none)
    (hwc : rdP (t.arr .w) center = .ok wc) (hnw : (N.div wc twoDx).toSize = .ok nw)
    (hx : (h.blk x).isSome) (hw : (h.blk w).isSome) (hne : x ≠ w)
    (hfresh : ∀ p, h.next ≤ p → h.blk p = none) (h0 : nw = 0 → z ≠ .nullFreed) :
    ∃ r, resizeHalfWindow N z good1 good2 (some (some x)) (some (some w)) width twoDx center t h =
        .ok r ∧
      ((N.abs (N.sub width wc)).ge twoDx = false → r = ⟨0, t, some x, some w, h⟩) ∧
      ((N.abs (N.sub width wc)).ge twoDx = true →
        (good1 = true ∧ good2 = true ∧ (nw = 0 → z = .block) → Renewed N t nw center x w h r) ∧
        (¬ (good1 = true ∧ good2 = true ∧ (nw = 0 → z = .block)) → CleanFail t x w h r)) := by
  unfold resizeHalfWindow
  simp only [he, Option.isSome_none, Bool.false_eq_true, if_false, hwc, Res.ok_bind]
  cases hg : (N.abs (N.sub width wc)).ge twoDx with
  | false => exact ⟨_, rfl, fun _ => rfl, fun h => (nomatch h)⟩
  | true =>
    simp only [if_true]
    obtain ⟨lx, ex⟩ := Option.isSome_iff_exists.1 hx
    obtain ⟨lw, ew⟩ := Option.isSome_iff_exists.1 hw
    have hxn : x < h.next := by
      by_contra hh; rw [hfresh x (by omega)] at ex; cases ex
    have hwn : w < h.next := by
      by_contra hh; rw [hfresh w (by omega)] at ew; cases ew
    unfold resizeBody
    simp only [hwc, hnw, Res.ok_bind]
    rcases realloc_cases (good := good1) ex h0 with ⟨g1, g1', e1⟩ | ⟨g1, e1⟩
    · simp only [e1, Res.ok_bind]
      have ew' : ((h.erase x).alloc (resizeBuf lx nw)).2.blk w = some lw := by
        simp [Heap.alloc, Heap.erase, ew, Ne.symm hne, Nat.ne_of_lt hwn]
      rcases realloc_cases (good := good2) ew' h0 with ⟨g2, _, e2⟩ | ⟨g2, e2⟩
      · simp only [e2, Res.ok_bind]
        have q1 : (((((h.erase x).alloc (resizeBuf lx nw)).2).erase w).alloc (resizeBuf lw nw)).2.get
            (some h.next) = .ok (resizeBuf lx nw) := by
          simp [Heap.get, Heap.alloc, Heap.erase, (Nat.ne_of_lt hwn).symm]
        have q2 : (((((h.erase x).alloc (resizeBuf lx nw)).2).erase w).alloc (resizeBuf lw nw)).2.get
            (some ((h.erase x).alloc (resizeBuf lx nw)).2.next) = .ok (resizeBuf lw nw) := by
          simp [Heap.get, Heap.alloc, Heap.erase]
        rw [q1, Res.ok_bind, q2, Res.ok_bind]
        obtain ⟨b, eb⟩ := resetWindow_runs (N := N) false hwc (nw := nw) (x := resizeBuf lx nw)
          (w := resizeBuf lw nw) (by rw [resizeBuf_length]) (by rw [resizeBuf_length])
        obtain ⟨b1, b2, b3⟩ := resetWindow_ok eb
        rw [resizeBuf_length] at b2 b3
        rw [eb, Res.ok_bind]
        refine ⟨_, rfl, fun h => (nomatch h), fun _ => ⟨fun _ => ⟨rfl, rfl, h.next, h.next + 1, b.1, b.2, rfl, rfl, by omega,
          hfresh _ (by omega), hfresh _ (by omega), ?_, ?_, b2, b3, b1, fun p p1 p2 => ?_⟩,
          fun hh => absurd ⟨g1, g2, g1'⟩ hh⟩⟩
        · simp [Heap.put, Heap.alloc, Heap.erase]
        · simp [Heap.put, Heap.alloc, Heap.erase]
        · by_cases a1 : p = x <;> by_cases a2 : p = w <;>
            simp [Heap.put, Heap.alloc, Heap.erase, p1, p2, a1, a2, Ne.symm hne,
              Nat.ne_of_lt hxn, Nat.ne_of_lt hwn, Nat.ne_of_lt (Nat.lt_succ_of_lt hxn),
              Nat.ne_of_lt (Nat.lt_succ_of_lt hwn)]
      · simp only [e2, Res.ok_bind]
        rw [free_live (by simp [Heap.alloc, Heap.erase]), Res.ok_bind, free_live (by
          simp [Heap.alloc, Heap.erase, ew, Ne.symm hne, Nat.ne_of_lt hwn]), Res.ok_bind]
        refine ⟨_, rfl, fun h => (nomatch h), fun _ => ⟨fun hh => absurd ⟨hh.2.1, hh.2.2⟩ g2,
          fun _ => ⟨rfl, ⟨_, rfl⟩, ⟨rfl, rfl⟩, fun p => ?_⟩⟩⟩
        by_cases a1 : p = x <;> by_cases a2 : p = w <;> by_cases a3 : p = h.next <;>
          simp [Heap.alloc, Heap.erase, a1, a2, a3, Nat.ne_of_lt hxn, Ne.symm hne]
        simp [a3 ▸ a1, a3 ▸ a2, hfresh h.next (Nat.le_refl _)]
    · simp only [e1, Res.ok_bind]
      rw [free_live hx, Res.ok_bind, free_live (by simp [Heap.erase, ew, Ne.symm hne]), Res.ok_bind]
      refine ⟨_, rfl, fun h => (nomatch h), fun _ => ⟨fun hh => absurd ⟨hh.1, hh.2.2⟩ g1,
        fun _ => ⟨rfl, ⟨_, rfl⟩, ⟨rfl, rfl⟩, fun p => ?_⟩⟩⟩
      by_cases a1 : p = x <;> by_cases a2 : p = w <;> simp [Heap.erase, a1, a2]

/-- **C16** is false: with no window point on a side (`w_km_vals[center] < two_dx`) and the
`realloc(p, 0)` of the GNU library the first array is released twice, for every tau object
and every pair of arrays. -/
theorem C16_false (N : Num Dbl Cpx) (good1 good2 : Bool) {width twoDx wc : Dbl} {center x w : Nat}
    {t : TauD} {h : Heap (List Dbl)} (he : t.err = none)
    (hwc : rdP (t.arr .w) center = .ok wc) (hnw : (N.div wc twoDx).toSize = .ok 0)
    (hx : (h.blk x).isSome) (hg : (N.abs (N.sub width wc)).ge twoDx = true) :
    resizeHalfWindow N .nullFreed good1 good2 (some (some x)) (some (some w)) width twoDx center t h =
      .ub .doubleFree := by
  obtain ⟨lx, ex⟩ := Option.isSome_iff_exists.1 hx
  unfold resizeHalfWindow
  simp only [he, Option.isSome_none, Bool.false_eq_true, if_false, hwc, Res.ok_bind, hg, if_true]
  unfold resizeBody
  simp only [hwc, hnw, Res.ok_bind, Heap.realloc, ex, and_self, if_true, Heap.free, Heap.erase]
  rfl

/-- **C16** The guards: with a previous error, or NULL arguments, nothing is touched on the
heap and an error is set (or kept). -/
theorem C16_guards (N : Num Dbl Cpx) (z : ZeroRealloc) (good1 good2 : Bool)
    (xp wp : Option (Option Nat)) (width twoDx : Dbl) (center : Nat) (t : TauD)
    (h : Heap (List Dbl)) (hc : t.err ≠ none ∨ xp = none ∨ wp = none) :
    ∃ r, resizeHalfWindow N z good1 good2 xp wp width twoDx center t h = .ok r ∧ r.ret = 1 ∧
      r.heap = h ∧ r.tau.err ≠ none ∧ r.x = xp.join ∧ r.w = wp.join := by
  unfold resizeHalfWindow
  cases he : t.err with
  | some e => exact ⟨_, rfl, rfl, rfl, by simp [he], rfl, rfl⟩
  | none =>
    rw [he] at hc
    rcases hc with hc | rfl | rfl
    · exact absurd rfl hc
    · cases wp <;> exact ⟨_, rfl, rfl, rfl, by simp, rfl, rfl⟩
    · cases xp <;> exact ⟨_, rfl, rfl, rfl, by simp, rfl, rfl⟩

/-- **C16** The list-level model of the drivers (`resizeHalf`, glibc `realloc`) is what the
pointer-level code does: same next state, error exactly when it sets one, undefined
behaviour when it has it. -/
theorem C16_driver (N : Num Dbl Cpx) (E : Env) (good1 good2 : Bool) {st : WinSt} {twoDx wc : Dbl}
    {center nw x w : Nat} {t : TauD} {h : Heap (List Dbl)} (he : t.err = none)
    (hre : E.re center = (good1 && good2))
    (hwc : rdP (t.arr .w) center = .ok wc) (hnw : (N.div wc twoDx).toSize = .ok nw)
    (hx : h.blk x = some st.x) (hw : h.blk w = some st.w) (hne : x ≠ w)
    (hfresh : ∀ p, h.next ≤ p → h.blk p = none) :
    match resizeHalfWindow N .nullFreed good1 good2 (some (some x)) (some (some w)) st.wInit twoDx
        center t h with
    | .ub u => resizeHalf N E twoDx center st t = .ub u
    | .ok r => (r.tau.err.isSome ∧ ∃ l, resizeHalf N E twoDx center st t =
          .ok (.ret (t.fail .resizeHalfWindow l))) ∨
        (r.tau = t ∧ ∃ st' x' w', resizeHalf N E twoDx center st t = .ok (.go st') ∧
          r.x = some x' ∧ r.w = some w' ∧ r.heap.blk x' = some st'.x ∧
          r.heap.blk w' = some st'.w ∧
          (r.ret = 0 → st' = st) ∧ (r.ret = 1 → st'.wInit = wc ∧ st'.nw = nw)) := by
  by_cases hg : (N.abs (N.sub st.wInit wc)).ge twoDx = true
  · by_cases h0 : nw = 0
    · subst h0
      rw [C16_false N good1 good2 he hwc hnw (by rw [hx]; rfl) hg]
      simp only []
      unfold resizeHalf
      simp only [hwc, Res.ok_bind, hg, if_true, hnw]
    · obtain ⟨r, e, -, k⟩ := C16_partial N (z := .nullFreed) good1 good2 (width := st.wInit) he hwc hnw
        (x := x) (w := w) (by rw [hx]; rfl) (by rw [hw]; rfl) hne hfresh (fun h => absurd h h0)
      obtain ⟨k1, k2⟩ := k hg
      rw [e]
      simp only []
      unfold resizeHalf
      simp only [hwc, Res.ok_bind, hg, if_true, hnw, h0, if_false, hre]
      by_cases hgg : good1 = true ∧ good2 = true
      · right
        have kr := k1 ⟨hgg.1, hgg.2, fun h => absurd h h0⟩
        obtain ⟨x', w', bx, bw, c1, c2, -, -, -, c3, c4, c5, c6, c7, -⟩ := kr.blocks
        refine ⟨kr.tau, ?_⟩
        obtain ⟨b, eb⟩ := resetWindow_runs (N := N) false hwc (nw := nw) (x := rawBuf nw)
          (w := rawBuf nw) (by simp [rawBuf]) (by simp [rawBuf])
        obtain ⟨b1, b2, b3⟩ := resetWindow_ok eb
        obtain ⟨u1, u2⟩ := holdsHalf_unique c7 b1 c5 (by simpa [rawBuf] using b2) c6 (by simpa [rawBuf] using b3)
        refine ⟨⟨wc, nw, b.1, b.2⟩, x', w', ?_, c1, c2, u1 ▸ c3, u2 ▸ c4, ?_, fun _ => ⟨rfl, rfl⟩⟩
        · simp only [hgg.1, hgg.2, Bool.and_self, Bool.not_true, Bool.false_eq_true, if_false, eb,
            Res.ok_bind]
        · rw [kr.ret]; intro h; cases h
      · left
        have kf := k2 (fun hh => hgg ⟨hh.1, hh.2.1⟩)
        obtain ⟨l, hl⟩ := kf.tau
        refine ⟨by rw [hl]; rfl, 80, ?_⟩
        have : (good1 && good2) = false := by
          cases good1 <;> cases good2 <;> simp_all
        simp [this]
  · have hg' : (N.abs (N.sub st.wInit wc)).ge twoDx = false := by simpa using hg
    unfold resizeHalfWindow resizeHalf
    simp only [he, Option.isSome_none, Bool.false_eq_true, if_false, hwc, Res.ok_bind, hg']
    exact Or.inr ⟨trivial, st, x, w, rfl, rfl, rfl, hx, hw, fun _ => rfl, fun h => (nomatch h)⟩

/-- Two window arrays at the addresses 1 and 2, a foreign block at 3. -/
def winHeap : Heap (List Dbl) :=
  ⟨fun p => if p = 1 then some [.fin 0] else if p = 2 then some [.fin 1] else
    if p = 3 then some [] else none, 4⟩

theorem winHeap_fresh (p : Nat) (h : winHeap.next ≤ p) : winHeap.blk p = none := by
  have : 4 ≤ p := h
  simp [winHeap, show p ≠ 1 by omega, show p ≠ 2 by omega, show p ≠ 3 by omega]

/-- The width drops from 8 km to 4 km with `two_dx = 2`: with two successful calls the arrays
get two entries, with a failing second call they are released. -/
example : (∃ r, resizeHalfWindow exactNum .nullFreed true true (some (some 1)) (some (some 2))
      (.fin 8) (.fin 2) 4 (dcTau .legendre false fours) winHeap = .ok r ∧
      Renewed exactNum (dcTau .legendre false fours) 2 4 1 2 winHeap r) ∧
    ∃ r, resizeHalfWindow exactNum .nullFreed true false (some (some 1)) (some (some 2))
      (.fin 8) (.fin 2) 4 (dcTau .legendre false fours) winHeap = .ok r ∧
      CleanFail (dcTau .legendre false fours) 1 2 winHeap r := by
  have h := fun g => C16_partial exactNum (z := .nullFreed) true g (width := .fin 8) (twoDx := .fin 2)
    (wc := .fin 4) (center := 4) (nw := 2) (x := 1) (w := 2) (t := dcTau .legendre false fours)
    (h := winHeap) (by decide +kernel) (by rfl) (by decide +kernel) rfl rfl (by omega) winHeap_fresh
    (by omega)
  obtain ⟨r, e, -, k⟩ := h true
  obtain ⟨r', e', -, k'⟩ := h false
  exact ⟨⟨r, e, (k (by decide +kernel)).1 ⟨rfl, rfl, by omega⟩⟩,
    r', e', (k' (by decide +kernel)).2 (by simp)⟩

/-- The width drops from 8 km to 1 km with `two_dx = 2`: double free. -/
example : resizeHalfWindow exactNum .nullFreed true true (some (some 1)) (some (some 2))
      (.fin 8) (.fin 2) 4 (dcTau .legendre false (List.replicate 10 (.fin 1))) winHeap =
    .ub .doubleFree :=
  C16_false exactNum true true (by decide +kernel) (wc := .fin 1) (by rfl) (by decide +kernel) rfl
    (by decide +kernel)

end Verif
