import Verif.Model.Driver

/-!
# Heap level: allocation, release, ownership

`Model/State.lean` identifies an array member with its contents.  Here pointers
are addresses (`none` is NULL) and the heap says which blocks are live.  An
address is handed out at most once, so that every use of a stale pointer is
visible (re-use of addresses by a real allocator can only hide such an error).
-/
namespace Verif

/-- A heap with blocks of type `α`: the live blocks by address, and the first
address that was never handed out. (Vocabulary of the model.) -/
structure Heap (α : Type) where
  blk : Nat → Option α
  next : Nat

namespace Heap
variable {α : Type}

/-- Successful `malloc`/`calloc`. -/
def alloc (h : Heap α) (a : α) : Nat × Heap α :=
  (h.next, { blk := fun p => if p = h.next then some a else h.blk p, next := h.next + 1 })

/-- End of the life of a block. -/
def erase (h : Heap α) (p : Nat) : Heap α := { h with blk := fun q => if q = p then none else h.blk q }

/-- Overwrite the contents of a block. -/
def put (h : Heap α) (p : Nat) (a : α) : Heap α :=
  { h with blk := fun q => if q = p then some a else h.blk q }

/-- `free(p)`: NULL is allowed, anything but a live block is undefined. -/
def free (h : Heap α) : Option Nat → Res (Heap α)
  | none => .ok h
  | some p => match h.blk p with
    | none => .ub .doubleFree
    | some _ => .ok (h.erase p)

/-- Access through a pointer. -/
def get (h : Heap α) : Option Nat → Res α
  | none => .ub .nullDeref
  | some p => match h.blk p with
    | none => .ub .useAfterFree
    | some a => .ok a

end Heap

/-! ### Destroying a tau object -/

/-- The pointer members of a tau object that own memory. -/
inductive Slot
  | d (f : Fld)
  | c (f : CFld)
  deriving DecidableEq, Repr

/-- Heap blocks: an array, or a tau object (its pointer members). -/
inductive Block
  | data
  | tau (m : Slot → Option Nat)

/-- The members of src/tau/rss_ringoccs_tau_destroy_members.c 33-53, in order. -/
def destroyedSlots : List Slot :=
  [.d .rho, .d .F, .d .phi, .d .k, .d .rhoDot, .d .B, .d .D, .d .w,
   .d .tOet, .d .tRet, .d .tSet, .d .rhoCorrPole, .d .rhoCorrTiming,
   .d .tauThreshold, .d .phiRl, .d .rx, .d .ry, .d .rz,
   .c .tIn, .c .tOut, .c .tFwd]

/-- `TMPL_FREE(tau->s)` (libtmpl: `if (p) {free(p); p = NULL;}`), for the object at address `a`. -/
def freeSlot (a : Nat) (s : Slot) (h : Heap Block) : Res (Heap Block) := do
  match ← h.get (some a) with
  | .data => .ub .useAfterFree
  | .tau m => do
    let h ← h.free (m s)
    .ok (h.put a (.tau fun s' => if s' = s then none else m s'))

/-- The statements 33-53 for a list of members. -/
def freeSlots (a : Nat) : List Slot → Heap Block → Res (Heap Block)
  | [], h => .ok h
  | s :: ss, h => do
    let h ← freeSlot a s h
    freeSlots a ss h

/-- src/tau/rss_ringoccs_tau_destroy_members.c 26-54. -/
def destroyMembers (tau : Option Nat) (h : Heap Block) : Res (Heap Block) :=
  match tau with
  | none => .ok h
  | some a => freeSlots a destroyedSlots h

/-- src/tau/rss_ringoccs_tau_destroy.c 26-40; `tau` is the argument, a pointer to
the caller's variable (`none` if NULL).  Result: the caller's variable and the
heap.  Line 39 only nulls the local copy `tau_inst`. -/
def tauDestroy (tau : Option (Option Nat)) (h : Heap Block) :
    Res (Option (Option Nat) × Heap Block) :=
  match tau with
  | none => .ok (tau, h)
  | some none => .ok (tau, h)
  | some (some a) => do
    let h ← destroyMembers (some a) h
    let h ← h.free (some a)
    .ok (tau, h)

/-! ### Resizing the window arrays -/

/-- What `realloc(p, 0)` does: release `p` and return NULL (glibc), keep `p` and
return NULL, or behave as for other sizes.  C11 7.22.3 allows all three. -/
inductive ZeroRealloc
  | nullFreed | nullKept | block
  deriving DecidableEq, Repr

/-- Contents of a resized buffer: old values, then indeterminate ones. -/
def resizeBuf (l : List Dbl) (n : Nat) : List Dbl := l.take n ++ rawBuf (n - l.length)

/-- `realloc(p, n * sizeof(double))` for a non-NULL `p`; `good` tells whether the
allocator succeeds. -/
def Heap.realloc (h : Heap (List Dbl)) (z : ZeroRealloc) (good : Bool) (p n : Nat) :
    Res (Option Nat × Heap (List Dbl)) :=
  match h.blk p with
  | none => .ub .useAfterFree
  | some l =>
    if n = 0 ∧ z = .nullFreed then .ok (none, h.erase p)
    else if n = 0 ∧ z = .nullKept then .ok (none, h)
    else if good then
      let r := (h.erase p).alloc (resizeBuf l n)
      .ok (some r.1, r.2)
    else .ok (none, h)

/-- Result of `Tau_Resize_Half_Window`: return value, tau object, the caller's two
pointer variables, heap. -/
structure Resized where
  ret : Nat
  tau : TauD
  x : Option Nat
  w : Option Nat
  heap : Heap (List Dbl)

/-- src/tau/rss_ringoccs_tau_resize_half_window.c 73-147, `x`, `w` the addresses
of the two arrays. -/
def resizeBody (N : Num Dbl Cpx) (z : ZeroRealloc) (good1 good2 : Bool) (twoDx : Dbl)
    (center : Nat) (t : TauD) (x w : Nat) (h : Heap (List Dbl)) : Res Resized := do
  let wc ← rdP (t.arr .w) center
  let nw ← (N.div wc twoDx).toSize
  let r1 ← h.realloc z good1 x nw
  match r1.1 with
  | none => do
    let h ← r1.2.free (some x)
    let h ← h.free (some w)
    .ok ⟨1, t.fail .resizeHalfWindow 80, none, none, h⟩
  | some x' => do
    let r2 ← r1.2.realloc z good2 w nw
    match r2.1 with
    | none => do
      let h ← r2.2.free (some x')
      let h ← h.free (some w)
      .ok ⟨1, t.fail .resizeHalfWindow 111, none, none, h⟩
    | some w' => do
      let xs ← r2.2.get (some x')
      let ws ← r2.2.get (some w')
      let b ← resetWindow N false t nw center (xs, ws)
      .ok ⟨1, t, some x', some w', (r2.2.put x' b.1).put w' b.2⟩

/-- src/tau/rss_ringoccs_tau_resize_half_window.c 24-151 for a tau object that is
not NULL; `xp`, `wp` are the arguments (`none` is NULL, `some v` points to a
variable holding `v`).  The returned pointer variables are meaningless when the
argument is NULL. -/
def resizeHalfWindow (N : Num Dbl Cpx) (z : ZeroRealloc) (good1 good2 : Bool)
    (xp wp : Option (Option Nat)) (width twoDx : Dbl) (center : Nat) (t : TauD)
    (h : Heap (List Dbl)) : Res Resized :=
  if t.err.isSome then .ok ⟨1, t, xp.join, wp.join, h⟩
  else match xp, wp with
    | some x, some w => do
      let wc ← rdP (t.arr .w) center
      if (N.abs (N.sub width wc)).ge twoDx then
        match x, w with
        | some x, some w => resizeBody N z good1 good2 twoDx center t x w h
        | _, _ => .ok ⟨1, t.fail .resizeHalfWindow 59, x, w, h⟩
      else .ok ⟨0, t, x, w, h⟩
    | _, _ => .ok ⟨1, t.fail .resizeHalfWindow 28, xp.join, wp.join, h⟩

end Verif
