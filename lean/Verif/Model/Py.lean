import Verif.Model.Api

/-!
# The Python class `DiffractionCorrection`

Reference counts are not modelled (the code never releases the iterators, list elements and converted arrays, hence
nothing dangles).
-/
namespace Verif

/-- Python objects as far as the code can tell them apart.  Text is the text up to the first NUL, as C functions see it.
`str none` cannot be encoded in UTF-8 (lone surrogates; `PyUnicode_AsUTF8` returns NULL).  `list n it` is a list of
length `n`; iterating over it fails (`it = none`) or gives the elements `it`: the same as the list itself for plain lists,
anything at all for subclasses that override `__iter__`. -/
inductive PyObj
  | bytes (s : List Char)
  | str (s : Option (List Char))
  | int (z : Int)
  | float (x : Dbl)
  | list (n : Nat) (it : Option (List PyObj))
  | other

/-- `PyLong_AsDouble`: `none` means overflow (then the function returns -1.0 and sets a Python exception). -/
structure PyNum where
  ofInt : Int → Option Dbl

/-- The value of a list element (lines 91-106 of crssringoccs_get_py_range.c, 76-94 of crssringoccs_get_py_perturbation.c):
the number and whether a Python exception was set; `none` if the type is wrong. -/
def pyNumber (P : PyNum) : PyObj → Option (Dbl × Bool)
  | .int z => match P.ofInt z with
    | some x => some (x, false)
    | none => some (.fin (-1), true)
  | .float x => some (x, false)
  | _ => none

/-- `PyIter_Next` for the element number `n`: NULL after the last one; the type check that follows dereferences NULL. -/
def pyNext (it : Option (List PyObj)) (n : Nat) : Res PyObj :=
  match it with
  | none => .ub .nullDeref
  | some l => match l[n]? with
    | none => .ub .nullDeref
    | some x => .ok x

/-- rss_ringoccs/crssringoccs/diffraction_correction/crssringoccs_get_py_range.c 32-143. Second component of the result: a
Python exception was set. `dup`: the duplication of the string succeeds. -/
def getPyRange (P : PyNum) (dup : Bool) (r : Option PyObj) (t : TauD) : Res (TauD × Bool) :=
  if t.err.isSome then .ok (t, false)
  else match r with
  | none => .ok (t.fail .py 44, false)
  | some (.bytes s) => do
    let q ← setRange (some s) dup t
    .ok (q.1, false)
  | some (.str s) => do
    let q ← setRange s dup t
    .ok (q.1, s.isNone)
  | some (.list n it) =>
    if n ≠ 2 then .ok (t.fail .py 73, false)
    else do
      let x ← pyNext it 0
      match pyNumber P x with
      | none => .ok (t.fail .py 96, false)
      | some (a, e) =>
        let t := { t with range0 := a }
        let y ← pyNext it 1
        match pyNumber P y with
        | none => .ok (t.fail .py 96, e)
        | some (b, e') => .ok ({ t with range1 := b }, e || e')
  | some _ => .ok (t.fail .py 111, false)

/-- The loop 71-95 of crssringoccs_get_py_perturbation.c, from element `n` on, `k` elements left. -/
def perturbLoop (P : PyNum) (it : Option (List PyObj)) : Nat → Nat → TauD × Bool → Res (TauD × Bool)
  | 0, _, s => .ok s
  | k + 1, n, (t, e) => do
    let x ← pyNext it n
    match pyNumber P x with
    | none => .ok (t.fail .py 84, e)
    | some (a, e') => perturbLoop P it k (n + 1) ({ t with perturb := t.perturb.set n a }, e || e')

/-- rss_ringoccs/crssringoccs/diffraction_correction/crssringoccs_get_py_perturbation.c 32-109. -/
def getPyPerturb (P : PyNum) (r : Option PyObj) (t : TauD) : Res (TauD × Bool) :=
  if t.err.isSome then .ok (t, false)
  else match r with
  | none => .ok ({ t with perturb := List.replicate 5 (.fin 0) }, false)
  | some (.list n it) =>
    if n ≠ 5 then .ok (t.fail .py 55, false)
    else perturbLoop P it 5 0 (t, false)
  | some _ => .ok (t.fail .py 99, false)

/-! ### The DLP argument -/

/-- An attribute of the DLP argument: there is none; not an array; an array that `PyArray_FromObject` cannot convert to one
dimension of doubles (any other number of dimensions, text, ...); the converted array.  Attributes whose value changes between two
accesses are not modelled. -/
inductive PyAttr
  | missing
  | notArray
  | badArray
  | vec (l : List Dbl)

/-- The DLP argument. -/
structure PyDlp where
  attr : DFld → PyAttr
  history : Bool

/-- rss_ringoccs/crssringoccs/auxiliary/crssringoccs_extract_data.c 38-155, for a DLP object whose `error_message` is
still NULL (as at every call): line 89 prints to NULL, line 103 reads the dimensions of NULL. -/
def extractData (p : PyDlp) (d : DLP) (f : DFld) : Res (DLP × Option (List Dbl)) :=
  if d.errorOccurred then .ok (d, none)
  else match p.attr f with
  | .missing => .ok ({ d with errorOccurred := true }, none)
  | .notArray => .ub .nullDeref
  | .badArray => .ub .nullDeref
  | .vec l =>
    if l.length ≠ d.arrSize then .ok ({ d with errorOccurred := true }, none)
    else .ok (d, some l)

/-- The order of lines 141-157 of crssringoccs_py_dlp_to_c_dlp.c. -/
def extractOrder : List DFld :=
  [.pNorm, .phaseDeg, .phi, .phiRl, .B, .D, .fSky, .rhoDot, .tOet, .tRet, .tSet, .rx, .ry, .rz, .rhoCorrPole,
   .rhoCorrTiming, .rawTauThreshold]

/-- `EXTRACT_VAR` (line 37 of crssringoccs_py_dlp_to_c_dlp.c) for a list of members. -/
def extractAll (p : PyDlp) : List DFld → DLP → Res DLP
  | [], d => .ok d
  | f :: fs, d => do
    let r ← extractData p d f
    extractAll p fs { r.1 with arr := fun g => if g = f then r.2 else r.1.arr g }

/-- rss_ringoccs/crssringoccs/auxiliary/crssringoccs_py_dlp_to_c_dlp.c 43-159; `mem`: the allocation succeeds. After an
early error the members are not initialised (here: NULL), and nothing reads them. -/
def pyDlpToC (mem : Bool) (p : PyDlp) : Res (Option DLP) :=
  if !mem then .ok none
  else
    let bad : DLP := ⟨fun _ => none, 0, true⟩
    match p.attr .rho with
    | .missing => .ok (some bad)
    | .notArray => .ok (some bad)
    | .badArray => .ok (some bad)
    | .vec l => do
      let d ← extractAll p extractOrder ⟨fun g => if g = .rho then some l else none, l.length, false⟩
      .ok (some d)

/-! ### The constructor -/

/-- The arguments of `DiffractionCorrection`; `none` where an omitted argument matters.  (An omitted resolution is 0, the
content of a new Python object.) `parsed`: `PyArg_ParseTupleAndKeywords` succeeds. -/
structure PyArgs where
  parsed : Bool
  dlp : Option PyDlp
  resolution : Dbl
  rng : Option PyObj
  wtype : Option (List Char)
  psitype : Option (List Char)
  useFwd : Bool
  useNorm : Bool
  bfac : Bool
  sigma : Option Dbl
  resFactor : Option Dbl
  ecc : Option Dbl
  peri : Option Dbl
  perturb : Option PyObj

/-- What the outside world contributes besides `World`. -/
structure PyWorld where
  W : World
  P : PyNum
  dlpMem : Bool
  dupRange : Bool
  dupWindow : Bool
  dupPsi : Bool

/-- Result of the constructor: the return value, whether a Python exception is set, the tau object whose arrays the Python
object received, and whether the C objects for DLP and tau are still allocated. -/
structure PyOut where
  ret : Int
  exc : Bool
  result : Option TauD
  dlpLeft : Bool
  tauLeft : Bool

/-- rss_ringoccs/crssringoccs/auxiliary/crssringoccs_get_py_vars_from_tau_self.c 26-54 with the defaults of
crssringoccs_diffraction_correction_init.c 86-129. -/
def getPyVars (a : PyArgs) (t : TauD) : TauD :=
  if t.err.isSome then t
  else { t with
    sigma := a.sigma.getD (.fin (2 / 10000000000000))
    bfac := a.bfac
    ecc := a.ecc.getD (.fin 0)
    peri := a.peri.getD (.fin 0)
    useFwd := a.useFwd
    useNorm := a.useNorm }

/-- crssringoccs_diffraction_correction_init.c 239-249 for an existing tau object. -/
def pySettings (V : PyWorld) (a : PyArgs) (t : TauD) : Res (TauD × Bool) := do
  let t := getPyVars a t
  let r1 ← getPyPerturb V.P a.perturb t
  let r2 ← getPyRange V.P V.dupRange (some (a.rng.getD (.str (some "all".toList)))) r1.1
  let t := (setWindowType V.W.L (some (a.wtype.getD "kbmd20".toList)) V.dupWindow r2.1).1
  let t := (setPsiType V.W.toUChar (some (a.psitype.getD "fresnel4".toList)) V.dupPsi t).1
  let t ← reconstruction V.W.N V.W.L (runXf V.W.N) V.W.Z V.W.E t
  .ok (t, r1.2 || r2.2)

/-- rss_ringoccs/crssringoccs/diffraction_correction/crssringoccs_diffraction_correction_init.c 45-333.  All arguments are
optional (`|` at the beginning of the format, line 145): without the first one `DLPInst` is used uninitialised (line 193).  After
success the attribute `history` is fetched; a NULL goes through `Py_BuildValue` to `Py_INCREF` (lines 298-305). The arrays
of the tau object move to numpy arrays, or are released by `Tau_Destroy`. -/
def pyInit (V : PyWorld) (a : PyArgs) : Res PyOut :=
  if !a.parsed then .ok ⟨-1, true, none, false, false⟩
  else match a.dlp with
  | none => .ub .uninit
  | some p => do
    match ← pyDlpToC V.dlpMem p with
    | none => .ok ⟨-1, true, none, false, false⟩
    | some d =>
      if d.errorOccurred then .ok ⟨-1, true, none, false, false⟩
      else do
        let res := V.W.N.mul a.resolution (a.resFactor.getD (.fin (3 / 4)))
        match ← createFromDLP V.W.L V.W.A V.W.N (some d) res with
        | none => .ok ⟨-1, true, none, true, false⟩
        | some t => do
          let r ← pySettings V a t
          if r.1.err.isSome then .ok ⟨-1, true, none, true, false⟩
          else if !p.history then .ub .nullDeref
          else .ok ⟨1, r.2, some r.1, false, false⟩

end Verif
