import Verif.Model.Api

/-! Every public function is a no-op when the error flag is set. -/
set_option linter.unusedSimpArgs false
namespace Verif

theorem guarded_err {R C : Type} (body : Tau R C → Res (Tau R C)) {t : Tau R C} (h : t.err ≠ none) :
    guarded body t = .ok t := by
  have : t.err.isSome = true := by cases h' : t.err <;> simp_all
  simp [guarded, this]

theorem guarded_none {R C : Type} (body : Tau R C → Res (Tau R C)) {t : Tau R C} (h : t.err = none) :
    guarded body t = body t := by simp [guarded, h]

theorem withChecks_err (N : Num Dbl Cpx) (body : TauD → Res TauD) {t : TauD} (h : t.err ≠ none) :
    withChecks N body t = .ok t := by
  simp [withChecks, checkCoreData, checkDataRange, guarded_err _ h]

theorem isSome_of_err {R C : Type} {t : Tau R C} (h : t.err ≠ none) : t.err.isSome = true := by
  cases h' : t.err <;> simp_all

theorem call_run_err (W : World) (c : Call) (t : TauD) (h : t.err ≠ none) :
    c.run W t = .ok t := by
  cases c <;>
    simp [Call.run, checkAllan, checkResolution, checkEccentricity, checkPeriapse, checkRange,
      checkKeywords, checkAzimuth, checkDisplacement, checkOpening, checkRingDistance,
      checkRingRadius, checkGeometry, checkCoreData, checkDataRange, checkOccType, getWindowWidth,
      tauFinish, selectNewton, selectNewtonInterp, mallocMembers, copyDLPData, copyDLPMembers,
      computeData, setWindowType, setPsiType, setRange, dcFresnel, dcLegendre, dcNewton,
      dcPolyNewton, dcSimpleFFT, diffractionCorrection, reconstruction, prepare,
      withChecks_err _ _ h, guarded_err _ h, isSome_of_err h]

end Verif
