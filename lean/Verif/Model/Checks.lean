import Verif.Model.State

/-!
# Validation of a tau object

Every definition models the function of the same name in `src/tau`; line
numbers refer to that file.
-/
namespace Verif

/-- libtmpl array functions: min and max of an array. Arbitrary functions; their
specification (`Lib.Lawful`) is only assumed for NaN-free non-empty arrays. -/
structure Lib where
  /-- `tmpl_Double_Array_Min` and the `min` result of `tmpl_Double_Array_MinMax` -/
  arrMin : List Dbl → Dbl
  /-- `tmpl_Double_Array_Max` and the `max` result of `tmpl_Double_Array_MinMax` -/
  arrMax : List Dbl → Dbl
  /-- `tmpl_double_two_pi` -/
  twoPi : ℚ
  /-- `KBMD20NormEQ` etc.: normalised equivalent width of each window -/
  normEq : Win → Dbl
  /-- `tmpl_double_speed_of_light_kms` -/
  speedOfLight : Dbl

/-- Contents of an array are NaN-free. -/
def NaNFree (l : List Dbl) : Prop := ∀ x ∈ l, x.isNaN = false

/-- Assumed behaviour of the libtmpl min/max functions. -/
structure Lib.Lawful (L : Lib) : Prop where
  min_mem : ∀ l, l ≠ [] → NaNFree l → L.arrMin l ∈ l
  min_le : ∀ l, NaNFree l → ∀ x ∈ l, (L.arrMin l).le x = true
  max_mem : ∀ l, l ≠ [] → NaNFree l → L.arrMax l ∈ l
  le_max : ∀ l, NaNFree l → ∀ x ∈ l, x.le (L.arrMax l) = true

/-- src/tau/rss_ringoccs_tau_check_allan_deviation.c 11-56. -/
def checkAllan : TauD → Res TauD := guarded fun t =>
  if t.sigma.isNaN then .ok (t.fail .checkAllan 22)
  else if t.sigma.isInf then .ok (t.fail .checkAllan 34)
  else if t.sigma.le (.fin 0) then .ok (t.fail .checkAllan 46)
  else .ok t

/-- src/tau/rss_ringoccs_tau_check_resolution.c 75-120. -/
def checkResolution : TauD → Res TauD := guarded fun t =>
  if t.res.isNaN then .ok (t.fail .checkResolution 86)
  else if t.res.isInf then .ok (t.fail .checkResolution 98)
  else if t.res.le (.fin 0) then .ok (t.fail .checkResolution 110)
  else .ok t

/-- src/tau/rss_ringoccs_tau_check_eccentricity.c 11-56. -/
def checkEccentricity : TauD → Res TauD := guarded fun t =>
  if t.ecc.isNaN then .ok (t.fail .checkEccentricity 22)
  else if t.ecc.isInf then .ok (t.fail .checkEccentricity 34)
  else if t.ecc.lt (.fin 0) then .ok (t.fail .checkEccentricity 46)
  else .ok t

/-- src/tau/rss_ringoccs_tau_check_periapse.c 11-68. -/
def checkPeriapse (L : Lib) : TauD → Res TauD := guarded fun t =>
  if t.peri.isNaN then .ok (t.fail .checkPeriapse 22)
  else if t.peri.isInf then .ok (t.fail .checkPeriapse 34)
  else if t.peri.lt (.fin (-L.twoPi)) then .ok (t.fail .checkPeriapse 46)
  else if t.peri.gt (.fin L.twoPi) then .ok (t.fail .checkPeriapse 58)
  else .ok t

/-- src/tau/rss_ringoccs_tau_check_range.c 11-92. -/
def checkRange : TauD → Res TauD := guarded fun t =>
  if t.range0.isNaN then .ok (t.fail .checkRange 22)
  else if t.range1.isNaN then .ok (t.fail .checkRange 34)
  else if t.range0.isInf then .ok (t.fail .checkRange 46)
  else if t.range1.isInf then .ok (t.fail .checkRange 58)
  else if t.range0.lt (.fin 0) then .ok (t.fail .checkRange 70)
  else if t.range0.gt t.range1 then .ok (t.fail .checkRange 82)
  else .ok t

/-- src/tau/rss_ringoccs_tau_check_keywords.c 81-97. -/
def checkKeywords (L : Lib) : TauD → Res TauD := guarded fun t => do
  let t ← checkAllan t
  let t ← checkResolution t
  let t ← checkEccentricity t
  let t ← checkPeriapse L t
  checkRange t

/-- src/tau/rss_ringoccs_tau_check_azimuth_angle.c 83-159. -/
def checkAzimuth (L : Lib) : TauD → Res TauD := guarded fun t =>
  if (t.arr .phi).isNone then .ok (t.fail .checkAzimuth 99)
  else do
    let l ← rdN (t.arr .phi) t.arrSize
    let mn := L.arrMin l
    let mx := L.arrMax l
    if mn.isNaN || mx.isNaN then .ok (t.fail .checkAzimuth 114)
    else if mn.isInf || mx.isInf then .ok (t.fail .checkAzimuth 126)
    else if mn.lt (.fin (-360)) then .ok (t.fail .checkAzimuth 139)
    else if mx.gt (.fin 360) then .ok (t.fail .checkAzimuth 151)
    else .ok t

/-- src/tau/rss_ringoccs_tau_check_displacement.c 77-140. -/
def checkDisplacement (N : Num Dbl Cpx) : TauD → Res TauD := guarded fun t =>
  if t.dx.isNaN then .ok (t.fail .checkDisplacement 88)
  else if t.dx.isInf then .ok (t.fail .checkDisplacement 100)
  else if t.dx.eq (.fin 0) then .ok (t.fail .checkDisplacement 114)
  else if t.res.lt (N.mul (N.lit (199/100)) t.dx.abs) then .ok (t.fail .checkDisplacement 129)
  else .ok t

/-- src/tau/rss_ringoccs_tau_check_opening_angle.c 79-131. -/
def checkOpening (L : Lib) : TauD → Res TauD := guarded fun t =>
  if (t.arr .B).isNone then .ok (t.fail .checkOpening 95)
  else do
    let l ← rdN (t.arr .B) t.arrSize
    if (L.arrMin l).lt (.fin (-360)) then .ok (t.fail .checkOpening 111)
    else if (L.arrMax l).gt (.fin 360) then .ok (t.fail .checkOpening 123)
    else .ok t

/-- src/tau/rss_ringoccs_tau_check_ring_distance.c 79-120. -/
def checkRingDistance (L : Lib) : TauD → Res TauD := guarded fun t =>
  if (t.arr .D).isNone then .ok (t.fail .checkRingDistance 95)
  else do
    let l ← rdN (t.arr .D) t.arrSize
    if (L.arrMin l).le (.fin 0) then .ok (t.fail .checkRingDistance 110)
    else .ok t

/-- src/tau/rss_ringoccs_tau_check_ring_radius.c 78-119. -/
def checkRingRadius (L : Lib) : TauD → Res TauD := guarded fun t =>
  if (t.arr .rho).isNone then .ok (t.fail .checkRingRadius 94)
  else do
    let l ← rdN (t.arr .rho) t.arrSize
    if (L.arrMin l).le (.fin 0) then .ok (t.fail .checkRingRadius 109)
    else .ok t

/-- src/tau/rss_ringoccs_tau_check_geometry.c 5-18. -/
def checkGeometry (L : Lib) (N : Num Dbl Cpx) : TauD → Res TauD := guarded fun t => do
  let t ← checkAzimuth L t
  let t ← checkDisplacement N t
  let t ← checkOpening L t
  let t ← checkRingDistance L t
  checkRingRadius L t

/-- Macro RSSRINGOCCS_TAU_CHECK_DATA_MEMBER for a real array,
src/tau/rss_ringoccs_tau_check_core_data.c 73-82 (all thirteen expansions are
identified by the line of the expansion). The continuation is the rest of the
function. -/
def checkMember {A : Type} (t : TauD) (p : Option A) (line : Nat) (rest : Res TauD) : Res TauD :=
  if p.isNone then .ok (t.fail .checkCoreData line) else rest

/-- src/tau/rss_ringoccs_tau_check_core_data.c 86-114. -/
def checkCoreData : TauD → Res TauD := guarded fun t =>
  checkMember t (t.carr .tIn) 101 <|
  checkMember t (t.carr .tOut) 102 <|
  checkMember t (t.arr .rho) 103 <|
  checkMember t (t.arr .F) 104 <|
  checkMember t (t.arr .phi) 105 <|
  checkMember t (t.arr .k) 106 <|
  checkMember t (t.arr .rhoDot) 107 <|
  checkMember t (t.arr .B) 108 <|
  checkMember t (t.arr .D) 109 <|
  checkMember t (t.arr .w) 110 <|
  checkMember t (t.arr .rx) 111 <|
  checkMember t (t.arr .ry) 112 <|
  checkMember t (t.arr .rz) 113 <|
  .ok t

end Verif
