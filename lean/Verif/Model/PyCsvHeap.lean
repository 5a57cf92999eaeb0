import Verif.Model.CsvHeap

/-!
# The Python objects made from the CSV data: reference counts and the memory behind the arrays

`ExtractCSVData`, `GetUranusData` and `GetMergedCSVData` share one object type.  On top of the heap of C there are Python
objects with a reference count; an array owns the block of C memory that its capsule releases.  `None` is never released
and has no count here.
-/
namespace Verif

/-- src/csv_tools/rss_ringoccs_merged_csv_data_malloc.c 106-127, rss_ringoccs_merged_csv_data_destroy_members.c 49-70 (and
rss_ringoccs_merged_csv_data_destroy.c 34-68: the message is on the heap). -/
def mergedFmt : CsvFmt where
  allocs := [.B, .D, .fSky, .pNorm, .rawTau, .phase, .phi, .phiRl, .rawThreshold, .rhoCorrPole, .rhoCorrTiming, .rhoDot,
    .rho, .rx, .ry, .rz, .tOet, .tRet, .tSet, .tauPhase, .tauPower, .tauVals]
  frees := [.B, .D, .fSky, .pNorm, .rawTau, .phase, .phi, .phiRl, .rawThreshold, .rhoCorrPole, .rhoCorrTiming, .rhoDot,
    .rho, .rx, .ry, .rz, .tOet, .tRet, .tSet, .tauPhase, .tauPower, .tauVals]
  heapMsg := true

/-- The three classes: `ExtractCSVData` and `GetUranusData` (`csv`), `GetMergedCSVData` (`merged`). -/
inductive PyCsvKind
  | csv (M : CsvKind)
  | merged
  deriving DecidableEq, Repr

/-- The C structure that `*_Extract` returns: its address, its arrays and the error flag; `gone` is the memory after
`*_Destroy(&csv)`. -/
structure CSrc where
  mem : Mem
  self : Nat
  ptr : CsvMem → Option Nat
  err : Bool
  gone : Res Mem

/-- How many calls of `malloc` come before the first `fopen`: src/csv_tools/rss_ringoccs_csv_data_extract.c 48
(rss_ringoccs_uranus_csv_data_extract.c 47) and rss_ringoccs_geo_csv_extract.c 49-65; rss_ringoccs_merged_csv_data_extract.c 50-63. -/
def PyCsvKind.beforeOpen : PyCsvKind → Nat
  | .csv _ => 2
  | .merged => 1

/-- The call of `*_Extract`: rss_ringoccs/crssringoccs/extract_csv_data/crssringoccs_extract_csv_data_init.c 93-94,
get_uranus_data/crssringoccs_get_uranus_data_init.c 88-91, get_merged_csv_data/crssringoccs_get_merged_csv_data_init.c 78
and src/csv_tools/rss_ringoccs_merged_csv_data_extract.c 40-92 (for `merged` the file is `W.dlp`).
All arguments come after the `|` of the format (line 66, 62 and 59), so none is required; `named` says whether the
first file name was given.  If not, `fopen` gets a null pointer, which is undefined.  Simplification: the other file names
are given whenever the first is. -/
def PyCsvKind.extract (K : PyCsvKind) (W : CsvWorld) (named : Bool) (m : Mem) : Res (Mem ⊕ CSrc) :=
  if !named && (List.range K.beforeOpen).all fun i => W.A (m.calls + i) then .ub .nullDeref
  else match K with
    | .csv M => do
      match ← ownExtract M W m with
      | .inl m => .ok (.inl m)
      | .inr s => .ok (.inr ⟨s.mem, s.self, s.ptr, s.err, ownDestroy M s⟩)
    | .merged => do
      let r ← extractObj W.A mergedFmt W.dlp m
      match r.2 with
      | none => .ok (.inl r.1)
      | some o => .ok (.inr ⟨r.1, o.addr, o.ptr, o.err, destroyObj mergedFmt (some o) r.1⟩)

/-- A Python object: reference count, and the block that goes with it (through the capsule of an array). -/
structure PyCell where
  refs : Nat
  base : Option Nat
  deriving DecidableEq, Repr

/-- A pointer to a Python object that is not a null pointer. -/
inductive PyRef
  | none
  | obj (i : Nat)
  deriving DecidableEq, Repr

/-- Memory of C, Python objects, the number of allocations of Python objects so far, and whether an exception is set. -/
structure PySt where
  mem : Mem
  objs : Nat → Option PyCell
  next : Nat
  calls : Nat
  exc : Bool

/-- An instance: the attributes (rss_ringoccs/crssringoccs/crssringoccs.h, the type of the CSV objects); the attribute
`history` is that of the constructor of the same name. -/
structure PySelf where
  attr : CsvMem → Option PyRef
  revInfo : Option PyRef

/-- Replace one object. (Vocabulary.) -/
def PySt.put (st : PySt) (i : Nat) (c : Option PyCell) : PySt :=
  { st with objs := fun j => if j = i then c else st.objs j }

/-- A new object with the given cell. (Vocabulary.) -/
def PySt.fresh (st : PySt) (c : PyCell) : PyRef × PySt :=
  (.obj st.next, { st.put st.next (some c) with next := st.next + 1 })

/-- `Py_XDECREF`; at count zero the object goes, with the block of its capsule:
rss_ringoccs/crssringoccs/common/crssringoccs_capsule_cleanup.c 35-40. -/
def PySt.decref (st : PySt) : Option PyRef → Res PySt
  | none => .ok st
  | some .none => .ok st
  | some (.obj i) =>
    match st.objs i with
    | none => .ub .useAfterFree
    | some c =>
      if c.refs ≤ 1 then do
        let m ← st.mem.free c.base
        .ok { st.put i none with mem := m }
      else .ok (st.put i (some { c with refs := c.refs - 1 }))

variable {α : Type} [DecidableEq α]

/-- Set one attribute; `α` is the type of the names of the attributes. (Vocabulary.) -/
def setAttr (a : α → Option PyRef) (f : α) (v : Option PyRef) : α → Option PyRef :=
  fun g => if g = f then v else a g

/-- rss_ringoccs/crssringoccs/common/crssringoccs_set_var.c 40-91 for the attribute `f` and the pointer `b`.  `P` says
which allocations of Python objects succeed: first the array, then the capsule.  `PyArray_SetBaseObject` fails for a null
capsule, and reads a null array.  The old value is released only if the new one is `None`. -/
def createArray (P : Nat → Bool) (b : Option Nat) (f : α) (a : α → Option PyRef) (st : PySt) :
    Res ((α → Option PyRef) × PySt) :=
  match b with
  | none => do
    let st ← st.decref (a f)
    .ok (setAttr a f (some .none), st)
  | some b =>
    let arr := P st.calls
    let cap := P (st.calls + 1)
    let st := { st with calls := st.calls + 2 }
    if !arr then .ub .nullDeref
    else if !cap then .ok (a, { st with exc := true })
    else
      let r := st.fresh ⟨1, some b⟩
      .ok (setAttr a f (some r.1), r.2)

/-- rss_ringoccs/crssringoccs/extract_csv_data/crssringoccs_extract_csv_data_steal.c 59-80, the same list in
get_uranus_data/crssringoccs_get_uranus_data_steal.c and get_merged_csv_data/crssringoccs_get_merged_csv_data_steal.c. -/
def pySteal : List CsvMem :=
  [.rho, .B, .D, .fSky, .pNorm, .rawTau, .phase, .phi, .phiRl, .rhoDot, .tOet, .tRet, .tSet, .rx, .ry, .rz, .rawThreshold,
   .rhoCorrPole, .rhoCorrTiming, .tauPower, .tauPhase, .tauVals]

/-- The calls of the macro `CREATE_NUMPY_ARRAY`, one after the other: lines 59-80 of the same file. -/
def createArrays (P : Nat → Bool) (ptr : α → Option Nat) : List α → (α → Option PyRef) → PySt →
    Res ((α → Option PyRef) × PySt)
  | [], a, st => .ok (a, st)
  | f :: fs, a, st => do
    let r ← createArray P (ptr f) f a st
    createArrays P ptr fs r.1 r.2

/-- rss_ringoccs/crssringoccs/extract_csv_data/crssringoccs_extract_csv_data_create_history.c 54-72 (also
get_uranus_data/…_create_history.c 58-76, get_merged_csv_data/…_create_history.c 39-57): the dictionary is made with one
reference, and gets a second one.  Simplification: the dictionary with its contents is one object. -/
def createHistory (P : Nat → Bool) (a : CsvMem → Option PyRef) (st : PySt) : Res ((CsvMem → Option PyRef) × PySt) :=
  let ok := P st.calls
  let st := { st with calls := st.calls + 1 }
  if !ok then .ub .nullDeref
  else do
    let r := st.fresh ⟨2, none⟩
    let st ← r.2.decref (a .history)
    .ok (setAttr a .history (some r.1), st)

/-- `__init__`: rss_ringoccs/crssringoccs/extract_csv_data/crssringoccs_extract_csv_data_init.c 93-161, the same in
get_uranus_data/crssringoccs_get_uranus_data_init.c 88-158 and get_merged_csv_data/crssringoccs_get_merged_csv_data_init.c
77-143. -/
def csvObjInit (K : PyCsvKind) (W : CsvWorld) (P : Nat → Bool) (named : Bool) (self : PySelf) (st : PySt) :
    Res (Int × PySelf × PySt) := do
  match ← K.extract W named st.mem with
  | .inl m => .ok (-1, self, { st with
      mem := m
      exc := true })
  | .inr src =>
    if src.err then do
      let m ← src.gone
      .ok (-1, self, { st with
        mem := m
        exc := true })
    else do
      let r ← createArrays P src.ptr pySteal self.attr { st with mem := src.mem }
      let r ← createHistory P r.1 r.2
      let st ← r.2.decref self.revInfo
      .ok (1, ⟨r.1, some .none⟩, st)

/-- The order of the releases: rss_ringoccs/crssringoccs/py_csv_obj/crssringoccs_py_csv_obj_destroy.c 23-46 without
`rev_info` (line 32). -/
def pyFrees : List CsvMem :=
  [.B, .D, .fSky, .pNorm, .rawTau, .phase, .phi, .phiRl, .rawThreshold, .rhoCorrPole, .rhoCorrTiming, .rhoDot, .rho, .tOet,
   .tRet, .tSet, .history, .rx, .ry, .rz, .tauPhase, .tauPower, .tauVals]

/-- `Py_XDECREF` of the attributes of a list: lines 23-46 of the same file. -/
def decrefs (a : α → Option PyRef) : List α → PySt → Res PySt
  | [], st => .ok st
  | f :: fs, st => do
    let st ← st.decref (a f)
    decrefs a fs st

/-- The destructor: rss_ringoccs/crssringoccs/py_csv_obj/crssringoccs_py_csv_obj_destroy.c 20-48. Simplification:
`rev_info` (always `None`) is released first. -/
def pyDealloc (self : PySelf) (st : PySt) : Res PySt := do
  let st ← st.decref self.revInfo
  decrefs self.attr pyFrees st

/-- A call of the class: `tp_new = PyType_GenericNew` gives an object full of null pointers
(rss_ringoccs/crssringoccs/extract_csv_data/crssringoccs_extract_csv_data_class.c 70-72); after a negative result of
`__init__` it is destroyed. -/
def pyConstruct (K : PyCsvKind) (W : CsvWorld) (P : Nat → Bool) (named : Bool) (st : PySt) : Res (Option PySelf × PySt) := do
  let r ← csvObjInit K W P named ⟨fun _ => none, none⟩ st
  if r.1 < 0 then do
    let st ← pyDealloc r.2.1 r.2.2
    .ok (none, st)
  else .ok (some r.2.1, r.2.2)

end Verif
