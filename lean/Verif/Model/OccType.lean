import Verif.Model.Checks

/-!
# Occultation type
-/
namespace Verif

/-- `tmpl_Double_Array_Reverse(tau->f, n)`: reverses the first `n` entries in
place (libtmpl; assumed).  NULL or a too short array is undefined. -/
def reverseFld (f : Fld) (n : Nat) (t : TauD) : Res TauD :=
  match t.arr f with
  | none => .ub .nullDeref
  | some l =>
    if n ≤ l.length then .ok (t.setArr f (some ((l.take n).reverse ++ l.drop n)))
    else .ub .oobRead

/-- The loop `for (n = 0; n < arr_size; ++n) rho_dot[n] = |rho_dot[n]|` of
src/tau/rss_ringoccs_tau_check_occ_type.c 196-198 and 224-226. -/
def absRhoDot (t : TauD) : Res TauD :=
  match t.arr .rhoDot with
  | none => .ub .nullDeref
  | some l =>
    if t.arrSize ≤ l.length then
      .ok (t.setArr .rhoDot (some ((l.take t.arrSize).map Dbl.abs ++ l.drop t.arrSize)))
    else .ub .oobRead

/-- The arrays reversed at src/tau/rss_ringoccs_tau_check_occ_type.c 209-222,
in this order. -/
def reversedFields : List Fld :=
  [.rho, .phi, .B, .D, .rhoDot, .tOet, .tRet, .tSet, .phiRl, .rx, .ry, .rz,
   .rhoCorrPole, .rhoCorrTiming]

/-- Calls `reverseFld` for each member of a list of fields. -/
def reverseAll (fs : List Fld) (n : Nat) (t : TauD) : Res TauD :=
  match fs with
  | [] => .ok t
  | f :: fs => do
    let t ← reverseFld f n t
    reverseAll fs n t

/-- src/tau/rss_ringoccs_tau_check_occ_type.c 76-230. -/
def checkOccType (L : Lib) : TauD → Res TauD := guarded fun t =>
  if (t.arr .rhoDot).isNone then .ok (t.fail .checkOccType 95)
  else if t.arrSize ≤ 1 then .ok (t.fail .checkOccType 107)
  else if t.dx.eq (.fin 0) then .ok (t.fail .checkOccType 119)
  else do
    let l ← rdN (t.arr .rhoDot) t.arrSize
    let mn := L.arrMin l
    let mx := L.arrMax l
    if mn.lt (.fin 0) && mx.gt (.fin 0) then .ok (t.fail .checkOccType 136)
    else if mn.eq (.fin 0) || mx.eq (.fin 0) then .ok (t.fail .checkOccType 156)
    else if t.dx.lt (.fin 0) && mn.gt (.fin 0) then .ok (t.fail .checkOccType 177)
    else if t.dx.gt (.fin 0) && mx.lt (.fin 0) then absRhoDot t
    else if t.dx.lt (.fin 0) then do
      let t ← reverseAll reversedFields t.arrSize t
      let t ← absRhoDot t
      .ok { t with dx := t.dx.abs }
    else .ok t

end Verif
