import Verif.Model.Checks

/-!
# Finishing a tau object
-/
namespace Verif

/-- `resize_array(&tau->f, start, len)`, src/tau/rss_ringoccs_tau_finish.c 6-19
(the unchecked malloc is assumed to succeed; `malloc(0)` gives an empty array). -/
def sliceFld (f : Fld) (start len : Nat) (t : TauD) : Res TauD := do
  let l ← rdSlice (t.arr f) start len
  .ok (t.setArr f (some l))

/-- `resize_carray`, src/tau/rss_ringoccs_tau_finish.c 21-33. -/
def sliceC (f : CFld) (start len : Nat) (t : TauD) : Res TauD := do
  let l ← rdSlice (t.carr f) start len
  .ok (t.setC f (some l))

/-- `resize_array` for each member of a list. -/
def sliceAll (fs : List Fld) (start len : Nat) (t : TauD) : Res TauD :=
  match fs with
  | [] => .ok t
  | f :: fs => do
    let t ← sliceFld f start len t
    sliceAll fs start len t

/-- The `double` members sliced at src/tau/rss_ringoccs_tau_finish.c 45-58. -/
def slicedFields : List Fld :=
  [.rho, .F, .phi, .k, .rhoDot, .B, .D, .w, .tOet, .tRet, .tSet, .rhoCorrPole,
   .rhoCorrTiming, .phiRl]

/-- src/tau/rss_ringoccs_tau_finish.c 35-63. -/
def tauFinish : TauD → Res TauD := guarded fun t => do
  let t ← sliceC .tIn t.start t.nUsed t
  let t ← sliceC .tOut t.start t.nUsed t
  let t ← sliceAll slicedFields t.start t.nUsed t
  let t := { t with arrSize := t.nUsed }
  if t.useFwd then sliceC .tFwd t.start t.nUsed t else .ok t

end Verif
