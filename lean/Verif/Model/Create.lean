import Verif.Model.Checks

/-!
# Creating a tau object from a DLP object
-/
namespace Verif

/-- Names of the array members of `rssringoccs_DLPObj`.
Models include/rss_ringoccs_calibration.h lines 13-30. -/
inductive DFld
  | rho | phi | B | D | fSky | rhoDot | tOet | tRet | tSet | rhoCorrPole
  | rhoCorrTiming | phiRl | pNorm | phaseDeg | rawTauThreshold | rx | ry | rz
  deriving DecidableEq, Repr

/-- `rssringoccs_DLPObj`, include/rss_ringoccs_calibration.h lines 12-34
(`error_message` left out). -/
structure DLP where
  arr : DFld → Option (List Dbl)
  arrSize : Nat
  errorOccurred : Bool

/-- src/tau/rss_ringoccs_tau_init.c 11-55 together with
src/tau/rss_ringoccs_tau_set_default_values.c 8-111.
Decimal literals are taken as exact rationals. -/
def tauInit (L : Lib) : TauD where
  arr := fun _ => none
  carr := fun _ => none
  dx := .fin 0
  normeq := L.normEq .kbmd20
  sigma := .fin (2 / 10000000000000)
  ecc := .fin 0
  peri := .fin 0
  res := .fin 1
  perturb := [.fin 0, .fin 0, .fin 0, .fin 0, .fin 0]
  range0 := .fin 0
  range1 := .fin 0
  req0 := .fin 1
  req1 := .fin 400000
  start := 0
  nUsed := 0
  arrSize := 0
  window := .kbmd20
  psinum := .newton8
  useNorm := true
  useFwd := false
  bfac := true
  err := none
  order := 0

/-- Allocation oracle: which of the `malloc` calls succeed (by call number) and
what the fresh, uninitialised memory contains. -/
structure Alloc where
  ok : Nat → Bool
  junk : Nat → List Dbl
  cjunk : Nat → List Cpx

/-- Fresh `malloc`ed array of `n` elements with arbitrary content: the first `n`
elements of the oracle's junk, padded with NaN (so that every content is
possible). -/
def fresh (junk : List Dbl) (n : Nat) : List Dbl := (junk ++ List.replicate n Dbl.nan).take n

/-- Same for complex arrays. -/
def cfresh (junk : List Cpx) (n : Nat) : List Cpx :=
  (junk ++ List.replicate n (⟨.nan, .nan⟩ : Cpx)).take n

/-- Macro MALLOC_TAU_VAR for a `double *` member,
src/tau/rss_ringoccs_tau_malloc_members.c 13-39; `i` is the number of the
malloc call, `line` the line of the expansion (16 and 31 of the macro are
distinguished by `100 * line + {16, 31}`). -/
def mallocVar (A : Alloc) (f : Fld) (i line : Nat) : TauD → Res TauD := guarded fun t =>
  if (t.arr f).isSome then .ok (t.fail .mallocMembers (100 * line + 16))
  else if A.ok i then .ok (t.setArr f (some (fresh (A.junk i) t.arrSize)))
  else .ok ((t.setArr f none).fail .mallocMembers (100 * line + 31))

/-- The same macro for `T_in`. -/
def mallocCVar (A : Alloc) (f : CFld) (i line : Nat) : TauD → Res TauD := guarded fun t =>
  if (t.carr f).isSome then .ok (t.fail .mallocMembers (100 * line + 16))
  else if A.ok i then .ok (t.setC f (some (cfresh (A.cjunk i) t.arrSize)))
  else .ok ((t.setC f none).fail .mallocMembers (100 * line + 31))

/-- The first fifteen expansions of the macro,
src/tau/rss_ringoccs_tau_malloc_members.c 68-82, as (member, malloc number, line). -/
def mallocList : List (Fld × Nat × Nat) :=
  [(.rho, 1, 68), (.phi, 2, 69), (.k, 3, 70), (.rhoDot, 4, 71), (.B, 5, 72), (.D, 6, 73),
   (.tOet, 7, 74), (.tRet, 8, 75), (.tSet, 9, 76), (.rhoCorrPole, 10, 77),
   (.rhoCorrTiming, 11, 78), (.phiRl, 12, 79), (.rx, 13, 80), (.ry, 14, 81), (.rz, 15, 82)]

/-- Expands MALLOC_TAU_VAR for each entry of a list. -/
def mallocAll (A : Alloc) : List (Fld × Nat × Nat) → TauD → Res TauD
  | [], t => .ok t
  | p :: ps, t => do
    let t ← mallocVar A p.1 p.2.1 p.2.2 t
    mallocAll A ps t

/-- src/tau/rss_ringoccs_tau_malloc_members.c 43-85.  The macro `return`s on
error; here every later expansion is guarded by the error flag, which is the
same thing because nothing follows the expansions. -/
def mallocMembers (A : Alloc) : TauD → Res TauD := guarded fun t =>
  if t.arrSize = 0 then .ok (t.fail .mallocMembers 53) else do
  let t ← mallocAll A mallocList t
  let t ← mallocCVar A .tIn 16 83 t
  mallocVar A .F 17 84 t

/-- `tau->X[n] = dlp->Y[n]`. -/
def copyAt (d : DLP) (dst : Fld) (src : DFld) (n : Nat) (t : TauD) : Res TauD := do
  let v ← rdP (d.arr src) n
  match t.arr dst with
  | none => .ub .nullDeref
  | some l => do
    let l' ← wr l n v
    pure (t.setArr dst (some l'))

/-- The assignments in the loop body of
src/tau/rss_ringoccs_tau_copy_dlp_members.c 69-82, in this order. -/
def copiedMembers : List (Fld × DFld) :=
  [(.rho, .rho), (.phi, .phi), (.B, .B), (.D, .D), (.rhoDot, .rhoDot), (.tOet, .tOet),
   (.tRet, .tRet), (.tSet, .tSet), (.rhoCorrPole, .rhoCorrPole),
   (.rhoCorrTiming, .rhoCorrTiming), (.phiRl, .phiRl), (.rx, .rx), (.ry, .ry), (.rz, .rz)]

/-- One pass of that loop. -/
def copyRow (d : DLP) (n : Nat) : List (Fld × DFld) → TauD → Res TauD
  | [], t => .ok t
  | p :: ps, t => do
    let t ← copyAt d p.1 p.2 n t
    copyRow d n ps t

/-- src/tau/rss_ringoccs_tau_copy_dlp_members.c 10-84. -/
def copyDLPMembers (d : DLP) : TauD → Res TauD := guarded fun t =>
  if d.errorOccurred then .ok (t.fail .copyDLPMembers 42)
  else if d.arrSize ≠ t.arrSize then .ok (t.fail .copyDLPMembers 55)
  else forRange 0 t.arrSize (fun n t => copyRow d n copiedMembers t) t

/-- Store `v` in element `n` of a member. -/
def storeAt (dst : Fld) (n : Nat) (v : Dbl) (t : TauD) : Res TauD :=
  match t.arr dst with
  | none => .ub .nullDeref
  | some l => do
    let l' ← wr l n v
    pure (t.setArr dst (some l'))

/-- Store `v` in element `n` of a complex member. -/
def cstoreAt (dst : CFld) (n : Nat) (v : Cpx) (t : TauD) : Res TauD :=
  match t.carr dst with
  | none => .ub .nullDeref
  | some l => do
    let l' ← wr l n v
    pure (t.setC dst (some l'))

/-- Loop body of src/tau/rss_ringoccs_tau_compute_data_from_dlp_members.c 92-111. -/
def computeRow (N : Num Dbl Cpx) (d : DLP) (n : Nat) (t : TauD) : Res TauD := do
  let p ← rdP (d.arr .pNorm) n
  let ph ← rdP (d.arr .phaseDeg) n
  let t ← cstoreAt .tIn n (N.polard (N.sqrt p) (N.neg ph)) t
  let f ← rdP (d.arr .fSky) n
  let lam := N.freqToWavelength f
  let t ← storeAt .k n (N.wavelengthToWavenumber lam) t
  let dd ← rdP (t.arr .D) n
  let phi ← rdP (t.arr .phi) n
  let b ← rdP (t.arr .B) n
  storeAt .F n (N.cylFresnelScaleDeg lam dd phi b) t

/-- src/tau/rss_ringoccs_tau_compute_data_from_dlp_members.c 30-113. -/
def computeData (N : Num Dbl Cpx) (d : DLP) : TauD → Res TauD := guarded fun t =>
  if d.errorOccurred then .ok (t.fail .computeData 66)
  else if d.arrSize ≠ t.arrSize then .ok (t.fail .computeData 79)
  else forRange 0 t.arrSize (computeRow N d) t

/-- src/tau/rss_ringoccs_tau_copy_dlp_data.c 89-161 (`dlp` may be NULL). -/
def copyDLPData (A : Alloc) (N : Num Dbl Cpx) (d : Option DLP) : TauD → Res TauD :=
  guarded fun t =>
  match d with
  | none => .ok (t.fail .copyDLPData 104)
  | some d =>
    if d.errorOccurred then .ok (t.fail .copyDLPData 117)
    else if d.arrSize ≤ 1 then .ok (t.fail .copyDLPData 130)
    else do
      let t ← mallocMembers A { t with arrSize := d.arrSize }
      if t.err.isSome then .ok t else do
      let t ← copyDLPMembers d t
      let t ← computeData N d t
      let r1 ← rdP (t.arr .rho) 1
      let r0 ← rdP (t.arr .rho) 0
      .ok { t with dx := N.sub r1 r0 }

/-- src/tau/rss_ringoccs_tau_create_from_dlp.c 11-73; malloc call 0 is the
object itself, `none` is the returned NULL. -/
def createFromDLP (L : Lib) (A : Alloc) (N : Num Dbl Cpx) (d : Option DLP) (res : Dbl) :
    Res (Option TauD) :=
  if !A.ok 0 then .ok none else
  let t := tauInit L
  match d with
  | none => .ok (some (t.fail .createFromDLP 25))
  | some dl =>
    if dl.errorOccurred then .ok (some (t.fail .createFromDLP 38))
    else if res.le (.fin 0) then .ok (some (t.fail .createFromDLP 50))
    else do
      let t ← copyDLPData A N d { t with res := res }
      let t ← checkGeometry L N t
      .ok (some t)

end Verif
