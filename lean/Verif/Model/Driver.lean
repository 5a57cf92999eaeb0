import Verif.Model.Create
import Verif.Model.Transform
import Verif.Model.Window
import Verif.Model.OccType
import Verif.Model.Finish

/-!
# Window buffers, the diffraction correction drivers, reconstruction

The drivers get the meaning of the transforms as a parameter `sem`; the real
code is `sem = runXf N`.  `Env` collects what the environment decides: success
of allocations and the OpenMP schedule.
-/
namespace Verif

/-- Meaning of the transforms (see `runXf`). -/
abbrev Sem := Xf → TauD → List Dbl → List Dbl → List Dbl → Nat → Nat → Res Cpx

/-- The FFT functions of libtmpl (`tmpl_CDouble_FFT`, `tmpl_CDouble_IFFT`). -/
structure FFTOf (C : Type) where
  fft : List C → List C
  ifft : List C → List C

/-- The FFT functions on the C complex numbers. -/
abbrev FFT := FFTOf Cpx

/-- Decisions of the environment.  `mem`: do the window buffer allocations of the
drivers succeed; `re c`: do the two `realloc` calls made for the point `c`
succeed (sizes different from 0); `junk`: contents of malloc'd memory;
`chunks n`: the pieces `(first, count)` into which `schedule(static)` cuts
`0 .. n-1` (one piece without OpenMP). -/
structure Env where
  mem : Bool
  re : Nat → Bool
  junk : Nat → Cpx
  chunks : Nat → List (Nat × Nat)

/-- The pieces of a schedule partition `0 .. n-1` in order. -/
def Covers (cs : List (Nat × Nat)) (n : Nat) : Prop :=
  (cs.flatMap fun c => List.range' c.1 c.2) = List.range n

/-- Store into `tau->T_out[i]`. -/
def storeOut (i : Nat) (v : Cpx) (t : TauD) : Res TauD :=
  match t.carr .tOut with
  | none => .ub .nullDeref
  | some l => do
    let l ← wr l i v
    .ok (t.setC .tOut (some l))

/-- src/tau/rss_ringoccs_tau_compute_window.c 20-35. -/
def computeWindowLoop (N : Num Dbl Cpx) (t : TauD) (off center n : Nat) (buf : List Dbl) :
    Res (List Dbl) := do
  let r ← rdP (t.arr .rho) (off + n)
  let rc ← rdP (t.arr .rho) center
  let wc ← rdP (t.arr .w) center
  wr buf n (N.winFn t.window (N.sub r rc) wc)

/-- src/tau/rss_ringoccs_tau_compute_window.c 5-36. -/
def computeWindow (N : Num Dbl Cpx) (t : TauD) (buf : List Dbl) (nw center : Nat) :
    Res (List Dbl) := do
  let off ← subIdx center (nw / 2)
  forRange 0 nw (computeWindowLoop N t off center) buf

/-- Loop body of src/tau/rss_ringoccs_tau_reset_window.c 53-58
(`sq = false`) and src/tau/rss_ringoccs_tau_compute_fresnel_window.c 25-35
(`sq = true`); state `(x_arr, w_func)`. -/
def resetLoop (N : Num Dbl Cpx) (sq : Bool) (t : TauD) (nw center n : Nat)
    (s : List Dbl × List Dbl) : Res (List Dbl × List Dbl) := do
  let x := N.mul (N.sub (N.ofNat n) (N.ofNat nw)) t.dx
  let xs ← wr s.1 n x
  let wc ← rdP (t.arr .w) center
  let ws ← wr s.2 n (N.winFn t.window x wc)
  let xs ← wr xs n (if sq then N.mul x (N.mul N.piByTwo x) else x)
  .ok (xs, ws)

/-- src/tau/rss_ringoccs_tau_reset_window.c 37-59 (`sq = false`) and
src/tau/rss_ringoccs_tau_compute_fresnel_window.c 7-36 (`sq = true`). -/
def resetWindow (N : Num Dbl Cpx) (sq : Bool) (t : TauD) (nw center : Nat)
    (s : List Dbl × List Dbl) : Res (List Dbl × List Dbl) :=
  forRange 0 nw (resetLoop N sq t nw center) s

/-- Thread-private variables of the Newton and Fresnel drivers. -/
structure WinSt where
  wInit : Dbl
  nw : Nat
  x : List Dbl
  w : List Dbl

/-- `(TMPL_CAST(w / two_dx, size_t) << 1) + 1`.  (The shift is assumed not to
overflow 64 bits: a buffer of that many doubles cannot exist.) -/
def newtonPts (N : Num Dbl Cpx) (w twoDx : Dbl) : Res Nat := do
  let q ← (N.div w twoDx).toSize
  .ok (2 * q + 1)

/-- Contents of a fresh window buffer of `n` doubles. -/
def rawBuf (n : Nat) : List Dbl := List.replicate n Dbl.nan

/-- Loop body src/reconstruction/rss_ringoccs_diffraction_correction_newton.c 169-190. -/
def newtonStep (N : Num Dbl Cpx) (sem : Sem) (f : Xf) (twoDx : Dbl) (n : Nat)
    (s : WinSt × TauD) : Res (WinSt × TauD) := do
  let st := s.1
  let t := s.2
  let center := t.start + n
  let wc ← rdP (t.arr .w) center
  let st ← (if (N.abs (N.sub st.wInit wc)).ge twoDx then do
      let nw ← newtonPts N wc twoDx
      let buf ← computeWindow N t st.w nw center
      .ok { st with wInit := wc, nw := nw, w := buf }
    else .ok st : Res WinSt)
  let v ← sem f t st.x st.w [] st.nw center
  let t ← storeOut center v t
  .ok (st, t)

/-- One thread: src/reconstruction/rss_ringoccs_diffraction_correction_newton.c
110-196 for the loop indices `lo .. lo+cnt-1`. -/
def newtonThread (N : Num Dbl Cpx) (sem : Sem) (f : Xf) (twoDx : Dbl) (nwMax : Nat)
    (c : Nat × Nat) (t : TauD) : Res TauD := do
  let w0 ← rdP (t.arr .w) t.start
  let nw ← newtonPts N w0 twoDx
  let buf ← computeWindow N t (rawBuf nwMax) nw t.start
  let s ← forRange c.1 c.2 (newtonStep N sem f twoDx) ({ wInit := w0, nw := nw, x := [], w := buf }, t)
  .ok s.2

/-- Runs the threads one after the other.  (They write different entries of
`T_out` and read nothing that another one writes, so that every interleaving
gives this result.) -/
def runThreads (thread : Nat × Nat → TauD → Res TauD) : List (Nat × Nat) → TauD → Res TauD
  | [], t => .ok t
  | c :: cs, t => do
    let t ← thread c t
    runThreads thread cs t

/-- `rssringoccs_newton_transform_table`,
src/fresnel_transform/rss_ringoccs_newton_transform_table.c 4-13. -/
def newtonTable : List (Option Xf) :=
  [some .riemann, some .filon01, some .filon11, some .filon02, some .filon12,
   some .elliptical, some .perturbed]

/-- `rssringoccs_newton_interp_transform_table`,
src/fresnel_transform/rss_ringoccs_newton_interp_transform_table.c 4-12. -/
def newtonInterpTable : List (Option Xf) :=
  [some .newton4, some .newton8, some .newton16, none, none, none]

/-- src/fresnel_transform/rss_ringoccs_tau_select_newton_transform.c 7-57: the
new state and the function pointer. -/
def selectNewton (t : TauD) : Res (TauD × Option Xf) :=
  if t.err.isSome then .ok (t, none)
  else if t.psinum = .none then .ok (t.fail .selectNewton 18, none)
  else if t.psinum.toNat < Psi.newtonRiemann.toNat then .ok (t.fail .selectNewton 29, none)
  else if t.psinum.toNat > Psi.newtonPerturb.toNat then .ok (t.fail .selectNewton 40, none)
  else do
    let f ← rd newtonTable (t.psinum.toNat - Psi.newtonRiemann.toNat)
    .ok (t, f)

/-- src/fresnel_transform/rss_ringoccs_tau_select_newton_interp_transform.c 7-57. -/
def selectNewtonInterp (t : TauD) : Res (TauD × Option Xf) :=
  if t.err.isSome then .ok (t, none)
  else if t.psinum = .none then .ok (t.fail .selectNewtonInterp 18, none)
  else if t.psinum.toNat < Psi.newtonRiemann.toNat then .ok (t.fail .selectNewtonInterp 29, none)
  else if t.psinum.toNat < Psi.newton4.toNat then .ok (t.fail .selectNewtonInterp 40, none)
  else do
    let f ← rd newtonInterpTable (t.psinum.toNat - Psi.newton4.toNat)
    .ok (t, f)

/-- The checks at the top of every driver, e.g.
src/reconstruction/rss_ringoccs_diffraction_correction_newton.c 41-49: run `body`
if no error occurred. -/
def withChecks (N : Num Dbl Cpx) (body : TauD → Res TauD) (t : TauD) : Res TauD := do
  let t ← checkCoreData t
  let t ← checkDataRange N t
  guarded body t

/-- src/reconstruction/rss_ringoccs_diffraction_correction_newton.c 30-200. -/
def dcNewton (N : Num Dbl Cpx) (L : Lib) (sem : Sem) (E : Env) : TauD → Res TauD :=
  withChecks N fun t => do
    let r1 ← rdP (t.arr .rho) 1
    let r0 ← rdP (t.arr .rho) 0
    let twoDx := N.mul (N.lit 2) (N.sub r1 r0)
    let ws ← rdSlice (t.arr .w) t.start t.nUsed
    let nwMax ← newtonPts N (L.arrMax ws) twoDx
    let (t, f) ← selectNewton t
    if t.err.isSome then .ok t
    else match f with
      | none => .ok (t.fail .dcNewton 92)
      | some f =>
        if !E.mem then .ok (t.fail .dcNewton 135)
        else runThreads (newtonThread N sem f twoDx nwMax) (E.chunks t.nUsed) t

/-- Loop body src/reconstruction/rss_ringoccs_diffraction_correction_fresnel.c 397-430. -/
def fresnelLoop (N : Num Dbl Cpx) (sem : Sem) (twoDx : Dbl) (n : Nat)
    (s : WinSt × TauD) : Res (WinSt × TauD) := do
  let st := s.1
  let t := s.2
  let center := t.start + n
  let wc ← rdP (t.arr .w) center
  let st ← (if (N.abs (N.sub st.wInit wc)).ge twoDx then do
      let nw ← (N.div wc twoDx).toSize
      let b ← resetWindow N true t nw center (st.x, st.w)
      .ok { wInit := wc, nw := nw, x := b.1, w := b.2 : WinSt }
    else .ok st : Res WinSt)
  let v ← sem .fresnel t st.x st.w [] st.nw center
  let t ← storeOut center v t
  .ok (st, t)

/-- One thread, src/reconstruction/rss_ringoccs_diffraction_correction_fresnel.c 333-440. -/
def fresnelThread (N : Num Dbl Cpx) (L : Lib) (sem : Sem) (c : Nat × Nat) (t : TauD) :
    Res TauD := do
  let twoDx := N.mul (N.lit 2) t.dx
  let ws ← rdSlice (t.arr .w) t.start t.nUsed
  let wMax := L.arrMax ws
  let nwMax ← (N.div wMax twoDx).toSize
  let s ← forRange c.1 c.2 (fresnelLoop N sem twoDx)
    ({ wInit := N.mul (N.lit (-4)) wMax, nw := 0, x := rawBuf nwMax, w := rawBuf nwMax }, t)
  .ok s.2

/-- src/reconstruction/rss_ringoccs_diffraction_correction_fresnel.c 308-442.  The
loop runs over `0 .. n_used` *inclusive* (line 396). -/
def dcFresnel (N : Num Dbl Cpx) (L : Lib) (sem : Sem) (E : Env) : TauD → Res TauD :=
  withChecks N fun t =>
    if !E.mem then .ok (t.fail .dcFresnel 376)
    else runThreads (fresnelThread N L sem) (E.chunks (t.nUsed + 1)) t

/-- Result of a loop with `return` inside. -/
inductive Flow (α : Type)
  | go (a : α)
  | ret (t : TauD)

/-- src/tau/rss_ringoccs_tau_resize_half_window.c 9-152 together with the update
of `w_init`, `nw_pts` by its callers (e.g.
src/reconstruction/rss_ringoccs_diffraction_correction_legendre.c 223-253).  The
callers pass valid pointers. `realloc(p, 0)` frees `p` and returns NULL (glibc;
undefined in C23), after which lines 92 or 126 free it again. -/
def resizeHalf (N : Num Dbl Cpx) (E : Env) (twoDx : Dbl) (center : Nat) (st : WinSt) (t : TauD) :
    Res (Flow WinSt) := do
  let wc ← rdP (t.arr .w) center
  if (N.abs (N.sub st.wInit wc)).ge twoDx then do
    let nw ← (N.div wc twoDx).toSize
    if nw = 0 then .ub .doubleFree
    else if !E.re center then .ok (.ret (t.fail .resizeHalfWindow 80))
    else do
      let b ← resetWindow N false t nw center (rawBuf nw, rawBuf nw)
      .ok (.go { wInit := wc, nw := nw, x := b.1, w := b.2 })
  else .ok (.go st)

/-- The loop shared by
src/reconstruction/rss_ringoccs_diffraction_correction_legendre.c 218-285 and
rss_ringoccs_diffraction_correction_polynomial_newton.c 141-177;
`call center t st` is the transform. -/
def halfLoop (N : Num Dbl Cpx) (E : Env) (twoDx : Dbl)
    (call : Nat → TauD → WinSt → Res Cpx) (center : Nat) : Nat → WinSt → TauD → Res TauD
  | 0, _, t => .ok t
  | cnt + 1, st, t => do
    match ← resizeHalf N E twoDx center st t with
    | .ret t => .ok t
    | .go st => do
      let v ← call center t st
      let t ← storeOut center v t
      halfLoop N E twoDx call (center + 1) cnt st t

/-- Initialisation shared by the same two drivers (e.g. legendre 172-176 and
209-215): `(two_dx, buffers)`. -/
def halfInit (N : Num Dbl Cpx) (t : TauD) : Res (Dbl × WinSt) := do
  let w0 ← rdP (t.arr .w) t.start
  let r1 ← rdP (t.arr .rho) (t.start + 1)
  let r0 ← rdP (t.arr .rho) t.start
  let twoDx := N.mul (N.lit 2) (N.sub r1 r0)
  let nw ← (N.div w0 twoDx).toSize
  .ok (twoDx, { wInit := w0, nw := nw, x := rawBuf nw, w := rawBuf nw })

/-- The coefficients computed at
src/reconstruction/rss_ringoccs_diffraction_correction_legendre.c 257-278. -/
def legCoeffs (N : Num Dbl Cpx) (t : TauD) (center : Nat) : Res (List Dbl) := do
  let B ← rdP (t.arr .B) center
  let cosb := N.cosd B
  let phi ← rdP (t.arr .phi) center
  let alpha := N.mul cosb (N.cosd phi)
  let beta := N.mul cosb (N.sind phi)
  let beta := N.mul beta beta
  let beta := N.mul beta (N.div (N.lit (1/2)) (N.sub (N.lit 1) beta))
  .ok ((List.range t.order).map (N.legendreL alpha beta t.order))

/-- The list `legendre_transform_list`,
src/reconstruction/rss_ringoccs_diffraction_correction_legendre.c 102-118, entry
`is_even + 2 * use_norm` with `is_even = order & 1`. -/
def legSelect (order : Nat) (useNorm : Bool) : Leg :=
  match order % 2 + 2 * (if useNorm then 1 else 0) with
  | 0 => .odd
  | 1 => .even
  | 2 => .oddNorm
  | _ => .evenNorm

/-- Lines 164-169: `k_vals[n] *= -1.0` for `n = 0 .. n_used` inclusive. -/
def negateK (N : Num Dbl Cpx) (n : Nat) (t : TauD) : Res TauD := do
  let k ← rdP (t.arr .k) n
  match t.arr .k with
  | none => .ub .nullDeref
  | some l => do
    let l ← wr l n (N.mul k (N.lit (-1)))
    .ok (t.setArr .k (some l))

/-- src/reconstruction/rss_ringoccs_diffraction_correction_legendre.c 100-291. -/
def dcLegendre (N : Num Dbl Cpx) (sem : Sem) (E : Env) : TauD → Res TauD :=
  withChecks N fun t => do
    let v := legSelect t.order t.useNorm
    let t ← (if t.useFwd then forRange 0 (t.nUsed + 1) (negateK N) t else .ok t : Res TauD)
    let i ← halfInit N t
    if !E.mem then .ok (t.fail .dcLegendre 186)
    else do
      let b ← resetWindow N false t i.2.nw t.start (i.2.x, i.2.w)
      halfLoop N E i.1
        (fun center t st => do
          let c ← legCoeffs N t center
          sem (.leg v) t st.x st.w c st.nw center)
        t.start t.nUsed { i.2 with x := b.1, w := b.2 } t

/-- src/reconstruction/rss_ringoccs_diffraction_correction_polynomial_newton.c 10-182. -/
def dcPolyNewton (N : Num Dbl Cpx) (sem : Sem) (E : Env) : TauD → Res TauD :=
  withChecks N fun t => do
    let i ← halfInit N t
    let (t, f) ← selectNewtonInterp t
    if t.err.isSome then .ok t
    else match f with
      | none => .ok (t.fail .dcPolyNewton 95)
      | some f =>
        if !E.mem then .ok (t.fail .dcPolyNewton 112)
        else do
          let b ← resetWindow N false t i.2.nw t.start (i.2.x, i.2.w)
          halfLoop N E i.1
            (fun center t st => sem f t st.x st.w [] st.nw center)
            t.start t.nUsed { i.2 with x := b.1, w := b.2 } t

/-- The loop of src/reconstruction/rss_ringoccs_diffraction_correction_simple_fft.c
34-35 in 64-bit arithmetic. After 64 doublings `power` is 0 and stays 0. -/
def nextPow2Go (n : Nat) : Nat → Nat → Res Nat
  | 0, _ => .ub .hang
  | fuel + 1, power => if power < n then nextPow2Go n fuel (power * 2 % 2 ^ 64) else .ok power

/-- src/reconstruction/rss_ringoccs_diffraction_correction_simple_fft.c 30-38. -/
def nextPow2 (n : Nat) : Res Nat := nextPow2Go n 66 1

/-- Loop body src/reconstruction/rss_ringoccs_diffraction_correction_simple_fft.c
131-152: `(ker[n], T_in[n])`; `inWin x` is the test of line 140.
`Fresnel_Kernel` is called with its `center` and `offset` arguments swapped.
(Polymorphic in the arithmetic.) -/
def fftSample {R C : Type} (N : Num R C) (t : Tau R C) (w0 : R) (inWin : R → Bool)
    (center start n : Nat) : Res (C × C) := do
  let r ← rdP (t.arr .rho) (start + n)
  let rc ← rdP (t.arr .rho) center
  let x := N.sub r rc
  let ker ← (if inWin x then do
      let k ← kernel N t (start + n) center
      .ok (N.crmul (N.mul (N.winFn t.window x w0) t.dx) k)
    else .ok N.czero : Res C)
  let T ← rdP (t.carr .tIn) (start + n)
  .ok (ker, T)

/-- The loop 130-152 for `n .. n+cnt-1`. -/
def fftSamples {R C : Type} (N : Num R C) (t : Tau R C) (w0 : R) (inWin : R → Bool)
    (center start n : Nat) : Nat → Res (List (C × C))
  | 0 => .ok []
  | cnt + 1 => do
    let p ← fftSample N t w0 inWin center start n
    let rest ← fftSamples N t w0 inWin center start (n + 1) cnt
    .ok (p :: rest)

/-- src/reconstruction/rss_ringoccs_diffraction_correction_simple_fft.c 130-174:
the contents of `T_out` after the inverse FFT. -/
def fftOut {R C : Type} (N : Num R C) (Z : FFTOf C) (t : Tau R C) (w0 : R) (inWin : R → Bool)
    (center start dataSize size : Nat) : Res (List C) := do
  let ps ← fftSamples N t w0 inWin center start 0 dataSize
  let pad := List.replicate (size - dataSize) N.czero
  let ker := ps.map Prod.fst ++ pad
  let tin := ps.map Prod.snd ++ pad
  .ok (Z.ifft (List.zipWith N.cmul (Z.fft ker) (Z.fft tin)))

/-- Loop body src/reconstruction/rss_ringoccs_diffraction_correction_simple_fft.c
178-181. -/
def fftStore (out : List Cpx) (half shift size n : Nat) (t : TauD) : Res TauD := do
  let v ← rd out ((half + n + shift) % size)
  storeOut (t.start + n) v t

/-- src/reconstruction/rss_ringoccs_diffraction_correction_simple_fft.c 63-186. -/
def simpleFFTBody (N : Num Dbl Cpx) (Z : FFT) (E : Env) (t : TauD) : Res TauD := do
  let center := t.start + t.nUsed / 2
  let w0 ← rdP (t.arr .w) center
  let half ← (N.div w0 t.dx).toSize
  let nw := 2 * half + 1
  let wThresh := N.mul (N.lit (1/2)) w0
  let dataSize := t.nUsed + nw - 1
  let size ← nextPow2 ((2 * dataSize + (2 ^ 64 - 1)) % 2 ^ 64)
  let shift := dataSize / 2
  if !E.mem then .ok (t.fail .dcSimpleFFT 98)
  else do
    let start ← subIdx center shift
    let out ← fftOut N Z t w0 (fun x => (N.abs x).le wThresh) center start dataSize size
    forRange 0 t.nUsed (fftStore out half shift size) t

/-- src/reconstruction/rss_ringoccs_diffraction_correction_simple_fft.c 40-188.
There is no NULL guard before line 56. -/
def dcSimpleFFT (N : Num Dbl Cpx) (Z : FFT) (E : Env) : TauD → Res TauD :=
  withChecks N (simpleFFTBody N Z E)

/-- `rssringoccs_Diffraction_Correction_SimpleFFT` called with a pointer: the two
check functions return on NULL, then line 56 reads `tau->error_occurred`. -/
def dcSimpleFFTPtr (N : Num Dbl Cpx) (Z : FFT) (E : Env) : Option TauD → Res (Option TauD)
  | none => .ub .nullDeref
  | some t => do let t' ← dcSimpleFFT N Z E t; .ok (some t')

/-- src/reconstruction/rss_ringoccs_diffraction_correction.c 5-37. -/
def diffractionCorrection (N : Num Dbl Cpx) (L : Lib) (sem : Sem) (Z : FFT) (E : Env) :
    TauD → Res TauD := guarded fun t =>
  if t.psinum = .fresnel then dcFresnel N L sem E t
  else if t.psinum = .legendre then dcLegendre N sem E t
  else if t.psinum = .newtonSimpleFFT then dcSimpleFFT N Z E t
  else if t.psinum.toNat ≤ Psi.newtonPerturb.toNat then dcNewton N L sem E t
  else if t.psinum.toNat < Psi.none.toNat then dcPolyNewton N sem E t
  else .ok (t.fail .diffractionCorrection 28)

/-- src/reconstruction/rss_ringoccs_reconstruction.c 18-31: the state after the
checks and the allocation of `T_out` (assumed to succeed; `Check_Core_Data`
reports a NULL). -/
def prepare (N : Num Dbl Cpx) (L : Lib) (E : Env) (t : TauD) : Res TauD := do
  let t ← checkKeywords L t
  let t ← checkOccType L t
  let t ← getWindowWidth N L t
  let t ← checkDataRange N t
  guarded (fun t => checkCoreData
    (t.setC .tOut (some ((List.range t.arrSize).map E.junk)))) t

/-- src/reconstruction/rss_ringoccs_reconstruction.c 42-79: forward modelling of
the reconstructed data. `temp_T_in` is local: on the early return of line 67 it
is lost (the last component tells whether that happened). -/
def forwardStage (N : Num Dbl Cpx) (L : Lib) (sem : Sem) (Z : FFT) (E : Env) (t : TauD) :
    Res (TauD × Bool) := do
  let tempIn := t.carr .tIn
  let t := t.setC .tIn (t.carr .tOut)
  let t := t.setC .tOut (some (List.replicate t.arrSize N.czero))
  let wl ← rdP (t.arr .w) t.start
  let wrt ← rdP (t.arr .w) (t.start + t.nUsed)
  let wMax := if wl.lt wrt then wrt else wl
  let nw ← (N.div wMax (N.mul t.dx (N.lit 2))).toSize
  let tempStart := t.start
  let tempUsed := t.nUsed
  if t.nUsed ≤ 2 * nw then .ok (t.fail .reconstruction 58, true)
  else do
    let t := { t with start := t.start + nw, nUsed := t.nUsed - 2 * nw }
    let t ← diffractionCorrection N L sem Z E t
    let t := { t with start := tempStart, nUsed := tempUsed }
    let t := t.setC .tFwd (t.carr .tOut)
    let t := t.setC .tOut (t.carr .tIn)
    let t := t.setC .tIn tempIn
    .ok (t, false)

/-- src/reconstruction/rss_ringoccs_reconstruction.c 9-84 (the version selected
by `#if 1`). Line 23 and line 30 return if an error occurred. -/
def reconstruction (N : Num Dbl Cpx) (L : Lib) (sem : Sem) (Z : FFT) (E : Env) (t : TauD) :
    Res TauD := do
  let t ← prepare N L E t
  guarded (fun t => do
    let fwd := t.useFwd
    let t ← diffractionCorrection N L sem Z E { t with useFwd := false }
    let t := { t with useFwd := fwd }
    if t.useFwd then do
      let r ← forwardStage N L sem Z E t
      if r.2 then .ok r.1 else tauFinish r.1
    else tauFinish t) t

end Verif
