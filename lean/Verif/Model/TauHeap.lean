import Verif.Model.CsvHeap

/-!
# Heap level of a tau object: creation, reconstruction, destruction

What the arrays contain is the subject of `Model/Create.lean`, `Model/Window.lean` and
`Model/Driver.lean`; here blocks have no contents.  The outcome of every test that depends on
the contents is given by a *plan*, an arbitrary value: a theorem about all plans is a theorem
about all data.  Every call of an allocation function is numbered, and an arbitrary function
`A` says which calls succeed (as in `Model/CsvHeap.lean`).
-/
namespace Verif

/-- The pointer members of a tau object, include/types/rss_ringoccs_tauobj.h 43-63. -/
abbrev TauPtr := Slot → Option Nat

/-- Assign one pointer member. (Vocabulary.) -/
def setSlot (p : TauPtr) (s : Slot) (v : Option Nat) : TauPtr := fun s' => if s' = s then v else p s'

/-! ### Creation -/

/-- The members allocated by src/tau/rss_ringoccs_tau_malloc_members.c 68-84, in order. -/
def createdSlots : List Slot :=
  [.d .rho, .d .phi, .d .k, .d .rhoDot, .d .B, .d .D, .d .tOet, .d .tRet, .d .tSet, .d .rhoCorrPole,
   .d .rhoCorrTiming, .d .phiRl, .d .rx, .d .ry, .d .rz, .c .tIn, .d .F]

/-- src/tau/rss_ringoccs_tau_malloc_members.c 13-40: `MALLOC_TAU_VAR` for a list of members; the
last component tells whether an error was set (member already there, or no memory). -/
def mallocTau (A : Nat → Bool) : List Slot → Mem → TauPtr → Mem × TauPtr × Bool
  | [], m, p => (m, p, false)
  | s :: ss, m, p =>
    if (p s).isSome then (m, p, true)
    else match m.malloc A with
      | (none, m) => (m, setSlot p s none, true)
      | (some q, m) => mallocTau A ss m (setSlot p s (some q))

/-! ### Window widths -/

/-- Where src/tau/rss_ringoccs_tau_get_window_width.c returns: before line 101, at line 170, at
line 206, or behind line 213. -/
inductive GwwExit
  | early | noLeft | noRight | late
  deriving DecidableEq, Repr

/-- Data-dependent outcomes in src/tau/rss_ringoccs_tau_get_window_width.c: the exit, `tau->bfac`,
`tau->n_used` at line 103, and the number `Prange_Size` of widths stored at 122-125. -/
structure GwwPlan where
  exit : GwwExit
  bfac : Bool
  used : Nat
  stored : Nat

/-- `r = tmpl_Where_..._Double(...); i = r[0]; s = *r[1];` (e.g. get_window_width.c 118-120).
libtmpl is not in the sources; assumed: three blocks, the indices, their number and the pair of
pointers, and NULL if one of them cannot be allocated, which the callers do not check. -/
def whereCall (A : Nat → Bool) (m : Mem) : Res (Mem × Nat × Nat × Nat) :=
  match m.malloc A with
  | (none, _) => .ub .nullDeref
  | (some i, m) =>
    match m.malloc A with
    | (none, _) => .ub .nullDeref
    | (some s, m) =>
      match m.malloc A with
      | (none, _) => .ub .nullDeref
      | (some r, m) => .ok (m, i, s, r)

/-- `free(index); free(range);` (e.g. get_window_width.c 129-130): the block `range[1]` points to
is not released. -/
def whereFree (m : Mem) (i r : Nat) : Res Mem := do
  let m ← m.free (some i)
  m.free (some r)

/-- src/tau/rss_ringoccs_tau_get_window_width.c 103-131; `w` is `w_km_vals`. -/
def gwwBfacMem (A : Nat → Bool) (P : GwwPlan) (w : Option Nat) (m : Mem) : Res Mem := do
  let (al, m) := m.malloc A
  let (pv, m) := m.malloc A
  if P.used ≠ 0 ∧ (al.isNone ∨ pv.isNone) then .ub .nullDeref
  else do
    let (m, i, _, r) ← whereCall A m
    if P.stored ≠ 0 ∧ w.isNone then .ub .nullDeref
    else do
      let m ← m.free pv
      let m ← m.free al
      whereFree m i r

/-- src/tau/rss_ringoccs_tau_get_window_width.c 143-235. -/
def gwwCutMem (A : Nat → Bool) (P : GwwPlan) (w : Option Nat) (m : Mem) : Res Mem := do
  let (rho, m) := m.malloc A
  if P.used ≠ 0 ∧ (rho.isNone ∨ w.isNone) then .ub .nullDeref
  else do
    let (m, i, _, r) ← whereCall A m
    if P.exit = .noLeft then whereFree m i r
    else do
      let m ← whereFree m i r
      let (m, i, _, r) ← whereCall A m
      let m ← m.free rho
      if P.exit = .noRight then .ok m else whereFree m i r

/-- src/tau/rss_ringoccs_tau_get_window_width.c 11-236. -/
def gwwMem (A : Nat → Bool) (P : GwwPlan) (m : Mem) (p : TauPtr) : Res (Mem × TauPtr) :=
  if P.exit = .early then .ok (m, p)
  else do
    let (w, m) := m.malloc A
    let m ← (if P.bfac then gwwBfacMem A P w m
      else if P.used ≠ 0 ∧ w.isNone then .ub .nullDeref else .ok m : Res Mem)
    let m ← gwwCutMem A P w m
    .ok (m, setSlot p (.d .w) w)

/-! ### The drivers of the diffraction correction -/

/-- `realloc(p, n)`: like `Heap.realloc`. -/
def Mem.realloc (A : Nat → Bool) (z : ZeroRealloc) (m : Mem) (p n : Nat) : Res (Option Nat × Mem) :=
  match m.heap.blk p with
  | none => .ub .useAfterFree
  | some _ =>
    if n = 0 ∧ z = .nullFreed then .ok (none, ⟨m.heap.erase p, m.calls + 1⟩)
    else if n = 0 ∧ z = .nullKept then .ok (none, ⟨m.heap, m.calls + 1⟩)
    else if A m.calls then .ok (some m.heap.next, ⟨((m.heap.erase p).alloc ()).2, m.calls + 1⟩)
    else .ok (none, ⟨m.heap, m.calls + 1⟩)

/-- What a driver does with memory: nothing (it returns before the allocations); threads with
`bufs` buffers each (Newton 1, Fresnel 2); the two window arrays, with the Legendre coefficients or
without, resized to the given sizes one after the other; the two arrays of the FFT method. -/
inductive DriverPlan
  | none
  | threads (bufs count : Nat)
  | half (coeffs : Bool) (sizes : List Nat)
  | fft

/-- Allocates `k` buffers. -/
def mallocBufs (A : Nat → Bool) : Nat → Mem → List (Option Nat) × Mem
  | 0, m => ([], m)
  | k + 1, m =>
    let (b, m) := m.malloc A
    let (bs, m) := mallocBufs A k m
    (b :: bs, m)

/-- `TMPL_FREE` for a list of pointers. -/
def freeBufs : List (Option Nat) → Mem → Res Mem
  | [], m => .ok m
  | b :: bs, m => do
    let m ← m.free b
    freeBufs bs m

/-- The threads of src/reconstruction/rss_ringoccs_diffraction_correction_newton.c 127, 135-148,
195 and rss_ringoccs_diffraction_correction_fresnel.c 367-390, 438-439, one after the other.  Both
exits go through the label CLEANUP. -/
def threadsMem (A : Nat → Bool) (bufs : Nat) : Nat → Mem → Res Mem
  | 0, m => .ok m
  | n + 1, m => do
    let (bs, m) := mallocBufs A bufs m
    let m ← freeBufs bs m
    threadsMem A bufs n m

/-- src/tau/rss_ringoccs_tau_resize_half_window.c 77-139: `none` is the exit with an error. -/
def resizeMem (A : Nat → Bool) (z : ZeroRealloc) (n x w : Nat) (m : Mem) :
    Res (Mem × Option (Nat × Nat)) := do
  match ← m.realloc A z x n with
  | (none, m) => do
    let m ← m.free (some x)
    let m ← m.free (some w)
    .ok (m, none)
  | (some x', m) =>
    match ← m.realloc A z w n with
    | (none, m) => do
      let m ← m.free (some x')
      let m ← m.free (some w)
      .ok (m, none)
    | (some w', m) => .ok (m, some (x', w'))

/-- The resizing calls of the loops
src/reconstruction/rss_ringoccs_diffraction_correction_legendre.c 218-285 and
rss_ringoccs_diffraction_correction_polynomial_newton.c 141-177. -/
def resizesMem (A : Nat → Bool) (z : ZeroRealloc) : List Nat → Nat → Nat → Mem →
    Res (Mem × Option (Nat × Nat))
  | [], x, w, m => .ok (m, some (x, w))
  | n :: ns, x, w, m => do
    match ← resizeMem A z n x w m with
    | (m, none) => .ok (m, none)
    | (m, some (x, w)) => resizesMem A z ns x w m

/-- src/reconstruction/rss_ringoccs_diffraction_correction_legendre.c 179-290 (`coeffs = true`) and
rss_ringoccs_diffraction_correction_polynomial_newton.c 108-181 (`coeffs = false`). -/
def halfMem (A : Nat → Bool) (z : ZeroRealloc) (coeffs : Bool) (sizes : List Nat) (m : Mem) :
    Res Mem := do
  let (x, m) := m.malloc A
  let (w, m) := m.malloc A
  let (c, m) := if coeffs then m.malloc A else (none, m)
  match x, w with
  | some x, some w =>
    if coeffs ∧ c.isNone then freeBufs [some x, some w, c] m
    else do
      match ← resizesMem A z sizes x w m with
      | (m, none) => m.free c
      | (m, some (x, w)) => freeBufs [some x, some w, c] m
  | x, w => freeBufs [x, w, c] m

/-- src/reconstruction/rss_ringoccs_diffraction_correction_simple_fft.c 94-110, 184-185 (the FFT
functions of libtmpl are assumed to release what they allocate). -/
def fftMem (A : Nat → Bool) (m : Mem) : Res Mem := do
  let (bs, m) := mallocBufs A 2 m
  freeBufs bs m

/-- src/reconstruction/rss_ringoccs_diffraction_correction.c 5-37 with the driver it calls. -/
def driverMem (A : Nat → Bool) (z : ZeroRealloc) : DriverPlan → Mem → Res Mem
  | .none, m => .ok m
  | .threads k n, m => threadsMem A k n m
  | .half c ss, m => halfMem A z c ss m
  | .fft, m => fftMem A m

/-! ### Finish -/

/-- `resize_array`/`resize_carray`, src/tau/rss_ringoccs_tau_finish.c 6-33, for one member. -/
def finishSlot (A : Nat → Bool) (len : Nat) (s : Slot) (m : Mem) (p : TauPtr) : Res (Mem × TauPtr) := do
  let (q, m) := m.malloc A
  if len ≠ 0 ∧ (q.isNone ∨ (p s).isNone) then .ub .nullDeref
  else do
    let m ← m.free (p s)
    .ok (m, setSlot p s q)

/-- src/tau/rss_ringoccs_tau_finish.c 43-62 for a list of members. -/
def finishSlots (A : Nat → Bool) (len : Nat) : List Slot → Mem → TauPtr → Res (Mem × TauPtr)
  | [], m, p => .ok (m, p)
  | s :: ss, m, p => do
    let (m, p) ← finishSlot A len s m p
    finishSlots A len ss m p

/-- The members of src/tau/rss_ringoccs_tau_finish.c 43-62, in order. -/
def finishedSlots (fwd : Bool) : List Slot :=
  [.c .tIn, .c .tOut, .d .rho, .d .F, .d .phi, .d .k, .d .rhoDot, .d .B, .d .D, .d .w, .d .tOet,
   .d .tRet, .d .tSet, .d .rhoCorrPole, .d .rhoCorrTiming, .d .phiRl] ++
  if fwd then [.c .tFwd] else []

/-! ### Reconstruction -/

/-- The members tested by src/tau/rss_ringoccs_tau_check_core_data.c 101-113. -/
def coreSlots : List Slot :=
  [.c .tIn, .c .tOut, .d .rho, .d .F, .d .phi, .d .k, .d .rhoDot, .d .B, .d .D, .d .w, .d .rx,
   .d .ry, .d .rz]

/-- Data-dependent outcomes in src/reconstruction/rss_ringoccs_reconstruction.c: `checks`, no error
before the window widths are computed; `range`, none between there and line 23; the two drivers and
whether they set an error; `use_fwd`; the test of line 58; `n_used` at line 82. -/
structure ReconPlan where
  checks : Bool
  gww : GwwPlan
  range : Bool
  inv : DriverPlan
  invErr : Bool
  fwd : Bool
  fits : Bool
  fwdDrv : DriverPlan
  fwdErr : Bool
  len : Nat

/-- src/reconstruction/rss_ringoccs_reconstruction.c 82: `Tau_Finish` unless an error occurred. -/
def reconEnd (A : Nat → Bool) (P : ReconPlan) (err : Bool) (m : Mem) (p : TauPtr) : Res (Mem × TauPtr) :=
  if err then .ok (m, p) else finishSlots A P.len (finishedSlots P.fwd) m p

/-- src/reconstruction/rss_ringoccs_reconstruction.c 42-82.  The local variable `temp_T_in` is
dropped at line 67.  If `T_out` cannot be allocated, `Check_Core_Data` reports it and no driver
runs. -/
def reconFwdMem (A : Nat → Bool) (z : ZeroRealloc) (P : ReconPlan) (m : Mem) (p : TauPtr) :
    Res (Mem × TauPtr) := do
  let tempIn := p (.c .tIn)
  let p := setSlot p (.c .tIn) (p (.c .tOut))
  let (o, m) := m.malloc A
  let p := setSlot p (.c .tOut) o
  if !P.fits then .ok (m, p)
  else do
    let m ← (if P.invErr ∨ o.isNone then .ok m else driverMem A z P.fwdDrv m : Res Mem)
    let p := setSlot p (.c .tFwd) (p (.c .tOut))
    let p := setSlot p (.c .tOut) (p (.c .tIn))
    let p := setSlot p (.c .tIn) tempIn
    reconEnd A P (P.invErr || o.isNone || P.fwdErr) m p

/-- src/reconstruction/rss_ringoccs_reconstruction.c 9-84.  The second test is line 85 of
src/tau/rss_ringoccs_tau_get_window_width.c: an object that already has window widths is an error. -/
def reconMem (A : Nat → Bool) (z : ZeroRealloc) (P : ReconPlan) (m : Mem) (p : TauPtr) :
    Res (Mem × TauPtr) :=
  if !P.checks then .ok (m, p)
  else if P.gww.exit ≠ .early ∧ (p (.d .w)).isSome then .ok (m, p)
  else do
    let (m, p) ← gwwMem A P.gww m p
    if P.gww.exit ≠ .late ∨ !P.range then .ok (m, p)
    else do
      let (o, m) := m.malloc A
      let p := setSlot p (.c .tOut) o
      if coreSlots.any fun s => (p s).isNone then .ok (m, p)
      else do
        let m ← driverMem A z P.inv m
        if P.fwd then reconFwdMem A z P m p else reconEnd A P P.invErr m p

/-! ### Destruction -/

/-- src/tau/rss_ringoccs_tau_destroy_members.c 33-53. -/
def destroyMem : List Slot → Mem → TauPtr → Res (Mem × TauPtr)
  | [], m, p => .ok (m, p)
  | s :: ss, m, p => do
    let m ← m.free (p s)
    destroyMem ss m (setSlot p s none)

end Verif
