import Verif.Model.Parse
import Verif.Model.Driver

/-!
# The public functions that work on a tau object

Models the declarations of include/rss_ringoccs_tau.h 81-457 and
include/rss_ringoccs_reconstruction.h: one constructor per function that takes
a tau object and changes only the tau object.
-/
namespace Verif

/-- Everything that the functions depend on apart from the tau object. -/
structure World where
  L : Lib
  N : Num Dbl Cpx
  Z : FFT
  A : Alloc
  E : Env
  toUChar : List Char → Fin 256

/-- One call of a public function with its further arguments. -/
inductive Call
  | checkAllan | checkResolution | checkEccentricity | checkPeriapse | checkRange
  | checkKeywords | checkAzimuth | checkDisplacement | checkOpening
  | checkRingDistance | checkRingRadius | checkGeometry | checkCoreData
  | checkDataRange | checkOccType | getWindowWidth | finish
  | selectNewton | selectNewtonInterp
  | mallocMembers
  | copyDLPData (d : Option DLP) | copyDLPMembers (d : DLP) | computeData (d : DLP)
  | setWindowType (s : Option (List Char)) (dup : Bool)
  | setPsiType (s : Option (List Char)) (dup : Bool)
  | setRange (s : Option (List Char)) (dup : Bool)
  | dcFresnel | dcLegendre | dcNewton | dcPolyNewton | dcSimpleFFT
  | diffractionCorrection | reconstruction

/-- What the call does to a (non-NULL) tau object. -/
def Call.run (W : World) : Call → TauD → Res TauD
  | .checkAllan => Verif.checkAllan
  | .checkResolution => Verif.checkResolution
  | .checkEccentricity => Verif.checkEccentricity
  | .checkPeriapse => Verif.checkPeriapse W.L
  | .checkRange => Verif.checkRange
  | .checkKeywords => Verif.checkKeywords W.L
  | .checkAzimuth => Verif.checkAzimuth W.L
  | .checkDisplacement => Verif.checkDisplacement W.N
  | .checkOpening => Verif.checkOpening W.L
  | .checkRingDistance => Verif.checkRingDistance W.L
  | .checkRingRadius => Verif.checkRingRadius W.L
  | .checkGeometry => Verif.checkGeometry W.L W.N
  | .checkCoreData => Verif.checkCoreData
  | .checkDataRange => Verif.checkDataRange W.N
  | .checkOccType => Verif.checkOccType W.L
  | .getWindowWidth => Verif.getWindowWidth W.N W.L
  | .finish => tauFinish
  | .selectNewton => fun t => do let r ← Verif.selectNewton t; .ok r.1
  | .selectNewtonInterp => fun t => do let r ← Verif.selectNewtonInterp t; .ok r.1
  | .mallocMembers => Verif.mallocMembers W.A
  | .copyDLPData d => Verif.copyDLPData W.A W.N d
  | .copyDLPMembers d => Verif.copyDLPMembers d
  | .computeData d => Verif.computeData W.N d
  | .setWindowType s dup => fun t => .ok (Verif.setWindowType W.L s dup t).1
  | .setPsiType s dup => fun t => .ok (Verif.setPsiType W.toUChar s dup t).1
  | .setRange s dup => fun t => do let r ← Verif.setRange s dup t; .ok r.1
  | .dcFresnel => Verif.dcFresnel W.N W.L (runXf W.N) W.E
  | .dcLegendre => Verif.dcLegendre W.N (runXf W.N) W.E
  | .dcNewton => Verif.dcNewton W.N W.L (runXf W.N) W.E
  | .dcPolyNewton => Verif.dcPolyNewton W.N (runXf W.N) W.E
  | .dcSimpleFFT => Verif.dcSimpleFFT W.N W.Z W.E
  | .diffractionCorrection => Verif.diffractionCorrection W.N W.L (runXf W.N) W.Z W.E
  | .reconstruction => Verif.reconstruction W.N W.L (runXf W.N) W.Z W.E

/-- The call with a tau *pointer*.  All functions but
`Diffraction_Correction_SimpleFFT` begin with `if (!tau) return;`, cf. the line
ranges cited at the definitions. -/
def Call.runPtr (W : World) (c : Call) (p : Option TauD) : Res (Option TauD) :=
  match c with
  | .dcSimpleFFT => dcSimpleFFTPtr W.N W.Z W.E p
  | c => nullGuard (c.run W) p

/-- A sequence of calls. -/
def runCalls (W : World) : List Call → TauD → Res TauD
  | [], t => .ok t
  | c :: cs, t => do
    let t ← c.run W t
    runCalls W cs t

end Verif
