import Verif.Model.PyCsvHeap
import Verif.Model.TauHeap
import Verif.Model.Py

/-!
# `DiffractionCorrection` objects: reference counts and the memory behind the arrays

The constructor from the point where `rssringoccs_Reconstruction` has returned, and the destructor.  What the constructor
does before that with the memory of C is in `Model/TauHeap.lean`, what it computes in `Model/Py.lean`.
-/
namespace Verif

/-- The attributes that hold a Python object: rss_ringoccs/crssringoccs/crssringoccs.h, `crssringoccs_PyDiffrecObj`. -/
inductive DcAttr
  | arr (s : Slot)
  | inputVars | inputKwds | outfiles
  deriving DecidableEq, Repr

/-- The arguments of the rest of the constructor: the tau object (NULL if it could not be allocated) with its arrays and its
error flag, and the DLP object. -/
structure DcSrc where
  tau : Option Nat
  dlp : Nat
  ptr : TauPtr
  err : Bool

/-- The C array for an attribute. (Vocabulary.) -/
def dcPtr (p : TauPtr) : DcAttr → Option Nat
  | .arr s => p s
  | _ => none

/-- rss_ringoccs/crssringoccs/auxiliary/crssringoccs_c_tau_to_py_tau.c 70-96, in order.  Lines 92-96 do for `T_fwd` what
`Create_Complex_Numpy_Array` (common/crssringoccs_set_cvar.c 40-91) does for every array: `None` for a null pointer. -/
def dcArrays : List DcAttr :=
  [.arr (.c .tIn), .arr (.c .tOut), .arr (.d .rho), .arr (.d .F), .arr (.d .phi), .arr (.d .k), .arr (.d .rhoDot),
   .arr (.d .B), .arr (.d .D), .arr (.d .w), .arr (.d .tOet), .arr (.d .tRet), .arr (.d .tSet), .arr (.d .rhoCorrPole),
   .arr (.d .rhoCorrTiming), .arr (.d .tauThreshold), .arr (.d .phiRl), .arr (.d .rx), .arr (.d .ry), .arr (.d .rz),
   .arr (.c .tFwd)]

/-- `Py_INCREF`. -/
def PySt.incref (st : PySt) (i : Nat) : Res PySt :=
  match st.objs i with
  | none => .ub .useAfterFree
  | some c => .ok (st.put i (some { c with refs := c.refs + 1 }))

/-- What the conversion of the DLP object does to the reference counts of its arrays, for attributes that already are
one-dimensional arrays of doubles (so that `PyArray_FromObject` returns the same object):
rss_ringoccs/crssringoccs/auxiliary/crssringoccs_extract_data.c 84 and 101, crssringoccs_py_dlp_to_c_dlp.c 91 and 107.
Both functions return new references and none of them is released. `ids f` is the array of member `f`. -/
def borrowArrays (ids : DFld → Nat) : List DFld → PySt → Res PySt
  | [], st => .ok st
  | f :: fs, st => do
    let st ← st.incref (ids f)
    let st ← st.incref (ids f)
    borrowArrays ids fs st

/-- `dlp_tmp = Py_BuildValue(...); tmp = self->...; Py_INCREF(dlp_tmp); ...; Py_XDECREF(tmp);`:
rss_ringoccs/crssringoccs/diffraction_correction/crssringoccs_diffraction_correction_init.c 293-302 and 307-327.
`Py_INCREF` of a null pointer is undefined.  Simplification: a dictionary with its contents is one object. -/
def dcSetDict (P : Nat → Bool) (f : DcAttr) (a : DcAttr → Option PyRef) (st : PySt) :
    Res ((DcAttr → Option PyRef) × PySt) :=
  let ok := P st.calls
  let st := { st with calls := st.calls + 1 }
  if !ok then .ub .nullDeref
  else do
    let r := st.fresh ⟨2, none⟩
    let st ← r.2.decref (a f)
    .ok (setAttr a f (some r.1), st)

/-- Lines 293-297 of the same file: the new reference of `PyObject_GetAttrString` is kept, and the dictionary takes another
one.  Without an attribute `history` the dictionary is a null pointer. -/
def dcHistory (hist : Option Nat) (st : PySt) : Res PySt :=
  match hist with
  | none => .ub .nullDeref
  | some i => do
    let st ← st.incref i
    st.incref i

/-- rss_ringoccs/crssringoccs/diffraction_correction/crssringoccs_diffraction_correction_init.c 254-332; `hist` is the
attribute `history` of the DLP argument. -/
def dcInit (P : Nat → Bool) (src : DcSrc) (hist : Option Nat) (a : DcAttr → Option PyRef) (st : PySt) :
    Res (Int × (DcAttr → Option PyRef) × PySt) :=
  match src.tau with
  | none => .ok (-1, a, { st with exc := true })
  | some tau =>
    if src.err then do
      let r ← destroyMem destroyedSlots st.mem src.ptr
      let m ← r.1.free (some tau)
      .ok (-1, a, { st with
        mem := m
        exc := true })
    else do
      let r ← createArrays P (dcPtr src.ptr) dcArrays a st
      let m ← r.2.mem.free (some tau)
      let m ← m.free (some src.dlp)
      let st ← dcHistory hist { r.2 with mem := m }
      let r ← dcSetDict P .inputVars r.1 st
      let r ← dcSetDict P .inputKwds r.1 r.2
      .ok (1, setAttr r.1 .outfiles none, r.2)

/-- rss_ringoccs/crssringoccs/diffraction_correction/crssringoccs_diffraction_correction_destroy.c 24-46, in order. -/
def dcFrees : List DcAttr :=
  [.arr (.c .tIn), .arr (.c .tOut), .arr (.c .tFwd), .arr (.d .B), .arr (.d .D), .arr (.d .F), .arr (.d .phi),
   .arr (.d .phiRl), .arr (.d .rhoCorrPole), .arr (.d .rhoCorrTiming), .arr (.d .rhoDot), .arr (.d .rho), .arr (.d .tOet),
   .arr (.d .tRet), .arr (.d .tSet), .arr (.d .tauThreshold), .arr (.d .w), .outfiles, .inputVars, .inputKwds,
   .arr (.d .rx), .arr (.d .ry), .arr (.d .rz)]

/-- The destructor, lines 22-48 of the same file. -/
def dcDealloc (a : DcAttr → Option PyRef) (st : PySt) : Res PySt := decrefs a dcFrees st

/-- A call of the class: a new object is full of null pointers (`PyType_GenericNew`), and it is destroyed if `__init__`
returns a negative number. -/
def dcConstruct (P : Nat → Bool) (src : DcSrc) (hist : Option Nat) (st : PySt) :
    Res (Option (DcAttr → Option PyRef) × PySt) := do
  let r ← dcInit P src hist (fun _ => none) st
  if r.1 < 0 then do
    let st ← dcDealloc r.2.1 r.2.2
    .ok (none, st)
  else .ok (some r.2.1, r.2.2)

end Verif
