import Verif.Base.Num

/-!
# The tau object
-/
namespace Verif

/-- Names of the `double *` members of `rssringoccs_TAUObj`.
Models include/types/rss_ringoccs_tauobj.h lines 46-63. -/
inductive Fld
  | rho | F | phi | k | rhoDot | B | D | w | tOet | tRet | tSet
  | rhoCorrPole | rhoCorrTiming | tauThreshold | phiRl | rx | ry | rz
  deriving DecidableEq, Repr

/-- Names of the `tmpl_ComplexDouble *` members.
Models include/types/rss_ringoccs_tauobj.h lines 43-45. -/
inductive CFld
  | tIn | tOut | tFwd
  deriving DecidableEq, Repr

/-- `enum rssringoccs_PsiType`, same order.
Models include/types/rss_ringoccs_psitype.h lines 30-76. -/
inductive Psi
  | fresnel | legendre | newtonSimpleFFT | newtonRiemann | newtonFilon01
  | newtonFilon11 | newtonFilon02 | newtonFilon12 | ellipticNewton
  | newtonPerturb | newton4 | newton8 | newton16 | ellipticNewton4
  | ellipticNewton8 | ellipticNewton16 | none
  deriving DecidableEq, Repr

/-- Numeric value of an enumerator (C enumerators count from 0).
Models include/types/rss_ringoccs_psitype.h lines 30-76. -/
def Psi.toNat : Psi → Nat
  | .fresnel => 0 | .legendre => 1 | .newtonSimpleFFT => 2 | .newtonRiemann => 3
  | .newtonFilon01 => 4 | .newtonFilon11 => 5 | .newtonFilon02 => 6
  | .newtonFilon12 => 7 | .ellipticNewton => 8 | .newtonPerturb => 9
  | .newton4 => 10 | .newton8 => 11 | .newton16 => 12 | .ellipticNewton4 => 13
  | .ellipticNewton8 => 14 | .ellipticNewton16 => 15 | .none => 16

/-- Functions that set error messages (used to identify a message). -/
inductive Fn
  | createFromDLP | copyDLPData | mallocMembers | copyDLPMembers | computeData
  | checkAzimuth | checkDisplacement | checkOpening | checkRingDistance
  | checkRingRadius | checkAllan | checkResolution | checkEccentricity
  | checkPeriapse | checkRange | checkCoreData | checkOccType | getWindowWidth
  | checkDataRange | setWindowType | setPsiType | setRange | resizeHalfWindow
  | diffractionCorrection | dcFresnel | dcLegendre | dcNewton | dcPolyNewton
  | dcSimpleFFT | selectNewton | selectNewtonInterp | reconstruction
  | modelLeft | modelRight | modelSine | py
  deriving DecidableEq, Repr

/-- An error message is identified by the function and the source line of the
`if` that guards the assignment of `error_message` (texts are not modelled). -/
structure Err where
  fn : Fn
  line : Nat
  deriving DecidableEq, Repr

/-- `rssringoccs_TAUObj` (include/types/rss_ringoccs_tauobj.h lines 42-87).
`arr`/`carr` map a member name to `none` (NULL) or the contents of the
allocation. `error_occurred` and `error_message` are always assigned together
in the source, they are the single field `err`. `EPS`, `toler`, `verbose` only
parametrise libtmpl calls/printing and are left out. -/
structure Tau (R C : Type) where
  arr : Fld → Option (List R)
  carr : CFld → Option (List C)
  dx : R
  normeq : R
  sigma : R
  ecc : R
  peri : R
  res : R
  perturb : List R
  range0 : R
  range1 : R
  req0 : R
  req1 : R
  start : Nat
  nUsed : Nat
  arrSize : Nat
  window : Win
  psinum : Psi
  useNorm : Bool
  useFwd : Bool
  bfac : Bool
  err : Option Err
  order : Nat

/-- Tau objects as the C code sees them. -/
abbrev TauD := Tau Dbl Cpx

namespace Tau
variable {R C : Type}

/-- `tau->error_occurred = tmpl_True; tau->error_message = "...";` -/
def fail (t : Tau R C) (fn : Fn) (line : Nat) : Tau R C := { t with err := some ⟨fn, line⟩ }

/-- Assign a `double *` member. -/
def setArr (t : Tau R C) (f : Fld) (v : Option (List R)) : Tau R C :=
  { t with arr := fun g => if g = f then v else t.arr g }

/-- Assign a complex pointer member. -/
def setC (t : Tau R C) (f : CFld) (v : Option (List C)) : Tau R C :=
  { t with carr := fun g => if g = f then v else t.carr g }

@[simp] theorem fail_err (t : Tau R C) (fn : Fn) (l : Nat) : (t.fail fn l).err = some ⟨fn, l⟩ := rfl
@[simp] theorem setArr_err (t : Tau R C) (f : Fld) (v) : (t.setArr f v).err = t.err := rfl
@[simp] theorem setC_err (t : Tau R C) (f : CFld) (v) : (t.setC f v).err = t.err := rfl

end Tau

/-- The guard at the top of every tau function
(`if (tau->error_occurred) return;`). -/
def guarded {R C : Type} (body : Tau R C → Res (Tau R C)) (t : Tau R C) : Res (Tau R C) :=
  if t.err.isSome then .ok t else body t

/-- The guard `if (!tau) return;` for functions called with a pointer. -/
def nullGuard {R C : Type} (f : Tau R C → Res (Tau R C)) :
    Option (Tau R C) → Res (Option (Tau R C))
  | none => .ok none
  | some t => do let t' ← f t; pure (some t')

end Verif
