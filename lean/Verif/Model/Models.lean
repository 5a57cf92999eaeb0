import Verif.Model.Driver

/-!
# Synthetic profiles
-/
namespace Verif

/-- `enum rssringoccs_ModelType`: include/rss_ringoccs_model.h 39-48. -/
inductive ModelKind
  | leftEdge | rightEdge | ringlet | gap | squareWave | sineWave | diracDelta | none
  deriving DecidableEq, Repr

/-- `rssringoccs_ModelParameters`: include/rss_ringoccs_model.h 50-68. `center` is
`geometry.edge.center`, the first number of the union (for the other members of the union the same
storage is `square.center` or `wave.left`); the wavelength is not used by the functions. -/
structure ModelParams where
  kind : ModelKind
  peak : Dbl
  center : Dbl

/-- Do `malloc` (T_out) and `calloc` (second T_out) succeed? -/
structure ModelMem where
  out : Bool
  calloc : Bool

/-- `tau->T_in[i] = v`. -/
def storeIn (i : Nat) (v : Cpx) (t : TauD) : Res TauD :=
  match t.carr .tIn with
  | none => .ub .nullDeref
  | some l => do
    let l ← wr l i v
    .ok (t.setC .tIn (some l))

/-- `while (tau->rho_km_vals[n] < center) { tau->T_in[n] = v; ++n; }`:
src/model/rss_ringoccs_tau_model_left_straightedge.c 76-82,
src/model/rss_ringoccs_tau_model_right_straightedge.c 63-69. The loop ends at the latest when it reads
outside the array, `fuel` is the length plus 1. -/
def belowLoop (c : Dbl) (v : Cpx) : Nat → Nat → TauD → Res (TauD × Nat)
  | 0, _, _ => .ub .hang
  | fuel + 1, n, t => do
    let r ← rdP (t.arr .rho) n
    if r.lt c then do
      let t ← storeIn n v t
      belowLoop c v fuel (n + 1) t
    else .ok (t, n)

/-- The profile of an edge at `c`: src/model/rss_ringoccs_tau_model_left_straightedge.c 60-85
(`below` the transmittance, `above` zero), src/model/rss_ringoccs_tau_model_right_straightedge.c 47-72
(the other way round). The flag tells whether the function returned early. -/
def edgeProfile (below above : Cpx) (c : Dbl) (t : TauD) : Res (TauD × Bool) := do
  let r0 ← rdP (t.arr .rho) 0
  if c.le r0 then do
    let t ← forRange 0 t.arrSize (fun n t => storeIn n above t) t
    .ok (t, true)
  else do
    let i ← subIdx t.arrSize 1
    let rl ← rdP (t.arr .rho) i
    if rl.le c then do
      let t ← forRange 0 t.arrSize (fun n t => storeIn n below t) t
      .ok (t, true)
    else do
      let r ← belowLoop c below (((t.arr .rho).getD []).length + 1) 0 t
      let t ← forRange r.2 (t.arrSize - r.2) (fun n t => storeIn n above t) r.1
      .ok (t, false)

/-- `tau->T_in[n] = tau->T_out[n]; tau->T_out[n] = 0`:
src/model/rss_ringoccs_tau_model_left_straightedge.c 93-94. -/
def moveOut (N : Num Dbl Cpx) (n : Nat) (t : TauD) : Res TauD := do
  let x ← rdP (t.carr .tOut) n
  let t ← storeIn n x t
  storeOut n N.czero t

/-- Diffraction of the profile in `T_in` and reconstruction of the result:
src/model/rss_ringoccs_tau_model_left_straightedge.c 87-149 (error lines 101 and 129),
src/model/rss_ringoccs_tau_model_sine_wave.c 63-125 (error lines 77 and 105). Simplification: `2*nw_pts` does not
wrap around. -/
def roundTrip (N : Num Dbl Cpx) (L : Lib) (sem : Sem) (Z : FFT) (E : Env) (A : ModelMem) (fn : Fn) (l1 l2 : Nat)
    (t : TauD) : Res TauD := do
  let fwd := t.useFwd
  let t ← diffractionCorrection N L sem Z E { t with useFwd := true }
  let t ← forRange 0 t.arrSize (moveOut N) t
  let ws ← rdN (t.arr .w) t.arrSize
  let wMax := L.arrMax ws
  let nw ← (N.div wMax (N.mul t.dx (N.lit 2))).toSize
  if t.nUsed ≤ 2 * nw then .ok (t.fail fn l1)
  else do
    let t := { t with start := t.start + nw, nUsed := t.nUsed - 2 * nw, useFwd := false }
    let t ← diffractionCorrection N L sem Z E t
    let t := { t with useFwd := fwd }
    if t.useFwd then do
      let tempIn := t.carr .tIn
      let t := t.setC .tIn (t.carr .tOut)
      let t := t.setC .tOut (if A.calloc then some (List.replicate t.arrSize N.czero) else none)
      let nw ← (N.div wMax (N.mul t.dx (N.lit 2))).toSize
      if t.nUsed ≤ 2 * nw then .ok (t.fail fn l2)
      else do
        let t := { t with start := t.start + nw, nUsed := t.nUsed - 2 * nw }
        let t ← diffractionCorrection N L sem Z E t
        let t := t.setC .tFwd (t.carr .tOut)
        let t := t.setC .tOut (t.carr .tIn)
        .ok (t.setC .tIn tempIn)
    else .ok t

/-- The checks and the allocation at the beginning: src/model/rss_ringoccs_tau_model_left_straightedge.c 29-56,
src/model/rss_ringoccs_tau_model_sine_wave.c 28-55. (A previous `T_out` is overwritten without being freed.) -/
def modelChecks (E : Env) (A : ModelMem) (fn : Fn) (lNull lKind : Nat) (p : Option ModelParams)
    (body : ModelParams → TauD → Res TauD) : TauD → Res TauD := guarded fun t =>
  match p with
  | none => .ok (t.fail fn lNull)
  | some p =>
    if p.kind ≠ .leftEdge then .ok (t.fail fn lKind)
    else do
      let t := t.setC .tOut (if A.out then some ((List.range t.arrSize).map E.junk) else none)
      let t ← checkCoreData t
      guarded (body p) t

/-- src/model/rss_ringoccs_tau_model_left_straightedge.c 12-150. -/
def modelLeft (N : Num Dbl Cpx) (L : Lib) (sem : Sem) (Z : FFT) (E : Env) (A : ModelMem) (p : Option ModelParams) :
    TauD → Res TauD :=
  modelChecks E A .modelLeft 29 40 p fun p t => do
    let r ← edgeProfile (N.rect p.peak (N.lit 0)) N.czero p.center t
    if r.2 then .ok r.1 else roundTrip N L sem Z E A .modelLeft 101 129 r.1

/-- src/model/rss_ringoccs_tau_model_right_straightedge.c 8-73. -/
def modelRight (N : Num Dbl Cpx) (p : Option ModelParams) : TauD → Res TauD := guarded fun t =>
  match p with
  | none => .ok (t.fail .modelRight 23)
  | some p =>
    if p.kind ≠ .rightEdge then .ok (t.fail .modelRight 34)
    else do
      let r ← edgeProfile N.czero (N.rect p.peak (N.lit 0)) p.center t
      .ok r.1

/-- src/model/rss_ringoccs_tau_model_sine_wave.c 58-60. -/
def sineStep (N : Num Dbl Cpx) (sin : Dbl → Dbl) (p : ModelParams) (n : Nat) (t : TauD) : Res TauD := do
  let r ← rdP (t.arr .rho) n
  let x := N.sub r p.center
  let y := sin (N.mul (N.lit 3) x)
  storeIn n (N.rect (N.mul y y) (N.lit 0)) t

/-- src/model/rss_ringoccs_tau_model_sine_wave.c 12-126; `sin` is `tmpl_Double_Sin`. -/
def modelSine (N : Num Dbl Cpx) (L : Lib) (sem : Sem) (Z : FFT) (E : Env) (A : ModelMem) (sin : Dbl → Dbl)
    (p : Option ModelParams) : TauD → Res TauD :=
  modelChecks E A .modelSine 28 39 p fun p t => do
    let t ← forRange 0 t.arrSize (sineStep N sin p) t
    roundTrip N L sem Z E A .modelSine 77 105 t

end Verif
