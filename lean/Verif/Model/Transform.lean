import Verif.Model.State

/-!
# The Fresnel transforms at one point

Each definition models one function of src/fresnel_transform; it returns the
value that the function leaves in `tau->T_out[center]` (the store itself, and
its bounds check, is done by the drivers of `Model/Driver.lean`; `T_out` never
aliases `T_in`).  All are polymorphic in the arithmetic.

Common simplifications: `tau` is not NULL and all pointer members that are used
are checked by `rdP`; `EPS` and `toler` are constants of the library functions.
-/
namespace Verif
variable {R C : Type}

/-- `tmpl_CDouble_Zero` -/
def Num.czero (N : Num R C) : C := N.rect (N.lit 0) (N.lit 0)
/-- `tmpl_CDouble_One` -/
def Num.cone (N : Num R C) : C := N.rect (N.lit 1) (N.lit 0)
/-- `TMPL_CAST(n, double)` for a `size_t` -/
def Num.ofNat (N : Num R C) (n : Nat) : R := N.lit (n : ℚ)

/-- The geometry set up at src/fresnel_transform/rss_ringoccs_fresnel_kernel.c
152-174 (`dphi = none`), rss_ringoccs_fresnel_phase_and_weight.c 20-39
(`dphi = none`) and rss_ringoccs_fast_fresnel_phase_and_weight.c 22-41
(`dphi = some phi_guess`); returns the wavenumber `k_vals[val0]` and `geo`. -/
def kernelGeo (t : Tau R C) (center offset : Nat) (dphi : Option R) : Res (R × Geo R) := do
  let val0 := if t.useFwd then center else offset
  let val1 := if t.useFwd then offset else center
  let rx ← rdP (t.arr .rx) val0
  let ry ← rdP (t.arr .ry) val0
  let rz ← rdP (t.arr .rz) val0
  let rho ← rdP (t.arr .rho) val0
  let phi ← rdP (t.arr .phi) val0
  let rho0 ← rdP (t.arr .rho) val1
  let k ← rdP (t.arr .k) val0
  .ok (k, ⟨rx, ry, rz, rho, phi, rho0, dphi.getD phi⟩)

/-- src/fresnel_transform/rss_ringoccs_fresnel_kernel.c 133-209. -/
def kernel (N : Num R C) (t : Tau R C) (center offset : Nat) : Res C := do
  let g ← kernelGeo t center offset none
  let ker := N.statKernel g.1 g.2
  .ok (if t.useFwd then ker else N.conj ker)

/-- src/fresnel_transform/rss_ringoccs_fresnel_phase_and_weight.c 11-74
(`dphi = none`) and rss_ringoccs_fast_fresnel_phase_and_weight.c 11-78:
`(weight, psi, 57.29577951308232 * phi_s)`. -/
def phaseWeight (N : Num R C) (t : Tau R C) (center offset : Nat) (dphi : Option R) :
    Res (R × R × R) := do
  let g ← kernelGeo t center offset dphi
  let r := N.statPhaseWeight g.1 g.2
  let psi := if t.useFwd then r.2.1 else N.neg r.2.1
  .ok (r.1, psi, N.mul (N.lit (5729577951308232 / 100000000000000)) r.2.2)

/-! ### Riemann sum of the Fresnel kernel -/

/-- Loop body src/fresnel_transform/rss_ringoccs_fresnel_transform_newton_riemann.c
67-87; state `(norm, T_out[center])`. -/
def riemannStep (N : Num R C) (t : Tau R C) (w : List R) (off0 center n : Nat) (s : C × C) :
    Res (C × C) := do
  let ker ← kernel N t center (off0 + n)
  let wn ← rd w n
  let ker := N.crmul wn ker
  let norm := if t.useNorm then N.cadd s.1 ker else s.1
  let T ← rdP (t.carr .tIn) (off0 + n)
  .ok (norm, N.cadd s.2 (N.cmul ker T))

/-- src/fresnel_transform/rss_ringoccs_fresnel_transform_newton_riemann.c 34-107. -/
def riemann (N : Num R C) (t : Tau R C) (w : List R) (nw center : Nat) : Res C := do
  let off0 ← subIdx center (nw / 2)
  let cnt ← subIdx nw 1
  let s ← forRange 0 cnt (riemannStep N t w off0 center) (N.czero, N.czero)
  .ok (if t.useNorm then N.crmul (N.div (N.lit 1) (N.cabs s.1)) s.2 else N.crmul t.dx s.2)

/-! ### Filon quadratures -/

/-- `weight`, `psi` (possibly the next phi guess) and `scale * T_in` at the window
point `n`, e.g. src/fresnel_transform/rss_ringoccs_fresnel_transform_newton_filon01.c
44-49: `(scale, scaled T, psi, phi_s)`. -/
def filonPoint (N : Num R C) (t : Tau R C) (w : List R) (center offset n : Nat) (dphi : Option R) :
    Res (R × C × R × R) := do
  let r ← phaseWeight N t center offset dphi
  let wn ← rd w n
  let scale := N.mul r.1 wn
  let T ← rdP (t.carr .tIn) offset
  .ok (scale, N.crmul scale T, r.2.1, r.2.2)

/-- Loop state of the first-order-phase Filon functions:
`(left_scale, left, left_psi, norm, T_out[center])`. -/
structure FilonSt (R C : Type) where
  scale : R
  left : C
  psi : R
  norm : C
  out : C

/-- Loop body src/fresnel_transform/rss_ringoccs_fresnel_transform_newton_filon01.c
43-73 (`deg0 = true`) and rss_ringoccs_fresnel_transform_newton_filon11.c 267-294
(`deg0 = false`). -/
def filonStep (N : Num R C) (deg0 : Bool) (t : Tau R C) (w : List R) (off0 center n : Nat)
    (s : FilonSt R C) : Res (FilonSt R C) := do
  let p ← filonPoint N t w center (off0 + n + 1) (n + 1) none
  let integrand :=
    if deg0 then N.cFilon01 (N.cmid s.left p.2.1) s.psi p.2.2.1 t.dx
    else N.cFilon11 s.left p.2.1 s.psi p.2.2.1 t.dx
  let normInt :=
    if deg0 then N.rFilon01 (N.mul (N.lit (1/2)) (N.add s.scale p.1)) s.psi p.2.2.1 t.dx
    else N.rFilon11 s.scale p.1 s.psi p.2.2.1 t.dx
  .ok { scale := p.1, left := p.2.1, psi := p.2.2.1,
        norm := if t.useNorm then N.cadd s.norm normInt else s.norm,
        out := N.cadd s.out integrand }

/-- src/fresnel_transform/rss_ringoccs_fresnel_transform_newton_filon01.c 18-88
(`deg0 = true`), rss_ringoccs_fresnel_transform_newton_filon11.c 241-309
(`deg0 = false`). -/
def filon1 (N : Num R C) (deg0 : Bool) (t : Tau R C) (w : List R) (nw center : Nat) : Res C := do
  let off0 ← subIdx center (nw / 2)
  let p ← filonPoint N t w center off0 0 none
  let cnt ← subIdx nw 1
  let s ← forRange 0 cnt (filonStep N deg0 t w off0 center)
    { scale := p.1, left := p.2.1, psi := p.2.2.1, norm := N.czero, out := N.czero }
  .ok (if t.useNorm then N.crmul (N.div (N.lit 1) (N.cabs s.norm)) s.out else s.out)

/-- Loop state of the Filon functions with quadratic phase:
`(left, left_psi, phi_s, T_out[center])` (`left_scale` is never used again). -/
structure Filon2St (R C : Type) where
  left : C
  psi : R
  phi : R
  out : C

/-- Loop body src/fresnel_transform/rss_ringoccs_fresnel_transform_newton_filon02.c
44-77 (`deg0 = true`, `m = n/2`) and rss_ringoccs_fresnel_transform_newton_filon12.c
45-76 (`deg0 = false`, which hands the previous stationary angle on). -/
def filon2Step (N : Num R C) (deg0 : Bool) (t : Tau R C) (w : List R) (off0 center m : Nat)
    (s : Filon2St R C) : Res (Filon2St R C) := do
  let p ← filonPoint N t w center (off0 + 2 * m + 1) (2 * m + 1) (if deg0 then none else some s.phi)
  let q ← filonPoint N t w center (off0 + 2 * m + 2) (2 * m + 2)
    (if deg0 then none else some p.2.2.2)
  let integrand :=
    if deg0 then N.cFilon02 (N.cmid s.left p.2.1) (N.cmid p.2.1 q.2.1) s.psi p.2.2.1 q.2.2.1 t.dx
    else N.cFilon12 s.left p.2.1 q.2.1 s.psi p.2.2.1 q.2.2.1 t.dx
  .ok { left := q.2.1, psi := q.2.2.1, phi := q.2.2.2, out := N.cadd s.out integrand }

/-- src/fresnel_transform/rss_ringoccs_fresnel_transform_newton_filon02.c 18-78
(`deg0 = true`), rss_ringoccs_fresnel_transform_newton_filon12.c 18-77
(`deg0 = false`).  The loop `for (n = 0; n < nw_pts - 2; n += 2)` has
`(nw_pts - 1) / 2` passes when `nw_pts >= 2`; with `nw_pts <= 1` the bound wraps
around and the loop runs off the arrays. -/
def filon2 (N : Num R C) (deg0 : Bool) (t : Tau R C) (w : List R) (nw center : Nat) : Res C := do
  let off0 ← subIdx center (nw / 2)
  let phi ← (if deg0 then .ok (N.lit 0) else rdP (t.arr .phi) off0 : Res R)
  let p ← filonPoint N t w center off0 0 (if deg0 then none else some phi)
  let cnt ← subIdx nw 2
  let s ← forRange 0 ((cnt + 1) / 2) (filon2Step N deg0 t w off0 center)
    { left := p.2.1, psi := p.2.2.1, phi := p.2.2.2, out := N.czero }
  .ok s.out

/-! ### Elliptical and perturbed Newton -/

/-- Final scaling of e.g.
src/fresnel_transform/rss_ringoccs_fresnel_transform_perturbed_newton.c 101-107:
`Rect(s, s) * out`. -/
def diagScale (N : Num R C) (s : R) (out : C) : C := N.cmul (N.rect s s) out

/-- Phase of src/fresnel_transform/rss_ringoccs_fresnel_transform_elliptical_newton.c
46 and 52-96. -/
def ellPsi (N : Num R C) (t : Tau R C) (center offset : Nat) : Res R := do
  let eccFactor := N.sub (N.lit 1) (N.mul t.ecc t.ecc)
  let phic ← rdP (t.arr .phi) center
  let f := N.add (N.lit 1) (N.mul t.ecc (N.cos (N.sub phic t.peri)))
  let rhoc ← rdP (t.arr .rho) center
  let semi := N.div (N.mul rhoc f) eccFactor
  let k ← rdP (t.arr .k) center
  let rhoo ← rdP (t.arr .rho) offset
  let phio ← rdP (t.arr .phi) offset
  let B ← rdP (t.arr .B) center
  let rx ← rdP (t.arr .rx) center
  let ry ← rdP (t.arr .ry) center
  let rz ← rdP (t.arr .rz) center
  let phi := N.ellPhi k rhoc rhoo phio phio B t.ecc t.peri rx ry rz
  let D := N.obsDist rhoo phi rx ry rz
  let f := N.add (N.lit 1) (N.mul t.ecc (N.cos (N.sub phi t.peri)))
  let rho := N.div (N.mul semi eccFactor) f
  .ok (N.idealPsiDeg k rho rhoo phi phio B D)

/-- Phase of src/fresnel_transform/rss_ringoccs_fresnel_transform_perturbed_newton.c
49-82. -/
def pertPsi (N : Num R C) (t : Tau R C) (center offset : Nat) : Res R := do
  let rhoc ← rdP (t.arr .rho) center
  let rhoo ← rdP (t.arr .rho) offset
  let D ← rdP (t.arr .D) center
  let x := N.div (N.sub rhoc rhoo) D
  let k ← rdP (t.arr .k) center
  let phio ← rdP (t.arr .phi) offset
  let B ← rdP (t.arr .B) center
  let phi := N.idealPhiDeg k rhoc rhoo phio phio B D
  let psi := N.idealPsiDeg k rhoc rhoo phi phio B D
  let p4 ← rd t.perturb 4
  let p3 ← rd t.perturb 3
  let p2 ← rd t.perturb 2
  let p1 ← rd t.perturb 1
  let p0 ← rd t.perturb 0
  let poly := N.add (N.mul x p4) p3
  let poly := N.add (N.mul poly x) p2
  let poly := N.add (N.mul poly x) p1
  let poly := N.add (N.mul poly x) p0
  let poly := N.mul poly (N.mul k D)
  .ok (N.add psi poly)

/-- Loop body of rss_ringoccs_fresnel_transform_elliptical_newton.c 98-108 and
rss_ringoccs_fresnel_transform_perturbed_newton.c 85-95; state
`(norm, T_out[center])`. -/
def psiStep (N : Num R C) (psi : Nat → Res R) (t : Tau R C) (w : List R) (off0 m : Nat)
    (s : C × C) : Res (C × C) := do
  let p ← psi (off0 + m)
  let wm ← rd w m
  let e := N.polar wm (N.neg p)
  let T ← rdP (t.carr .tIn) (off0 + m)
  .ok (N.cadd s.1 e, N.cadd s.2 (N.cmul e T))

/-- src/fresnel_transform/rss_ringoccs_fresnel_transform_elliptical_newton.c 24-121.
(With `n_pts = 0` the code computes a garbage `offset` that it never uses.) -/
def elliptical (N : Num R C) (t : Tau R C) (w : List R) (nw center : Nat) : Res C := do
  let off0 ← subIdx center ((nw - 1) / 2)
  let s ← forRange 0 nw (psiStep N (ellPsi N t center) t w off0) (N.czero, N.czero)
  let realNorm := N.div N.sqrtTwo (N.cabs s.1)
  .ok (diagScale N (N.mul (N.lit (1/2)) realNorm) s.2)

/-- src/fresnel_transform/rss_ringoccs_fresnel_transform_perturbed_newton.c 23-108. -/
def perturbed (N : Num R C) (t : Tau R C) (w : List R) (nw center : Nat) : Res C := do
  let off0 ← subIdx center ((nw - 1) / 2)
  let s ← forRange 0 nw (psiStep N (pertPsi N t center) t w off0) (N.czero, N.czero)
  .ok (diagScale N (N.div N.rcprSqrtTwo (N.cabs s.1)) s.2)

/-! ### The quadratic ("Fresnel") transform -/

/-- Loop body src/fresnel_transform/rss_ringoccs_fresnel_transform.c 240-276; pass
`m` uses the index `n = n_pts - m`. -/
def fresnelStep (N : Num R C) (t : Tau R C) (x w : List R) (fac : R) (nw center m : Nat)
    (s : C × C) : Res (C × C) := do
  let xm ← rd x m
  let wm ← rd w m
  let e := N.polar wm (N.neg (N.mul fac xm))
  let norm := if t.useNorm then N.cadd s.1 e else s.1
  let li ← subIdx center (nw - m)
  let Tl ← rdP (t.carr .tIn) li
  let Tr ← rdP (t.carr .tIn) (center + (nw - m))
  .ok (norm, N.cadd s.2 (N.cmul (N.cadd Tl Tr) e))

/-- src/fresnel_transform/rss_ringoccs_fresnel_transform.c 194-304. -/
def fresnel (N : Num R C) (t : Tau R C) (x w : List R) (nw center : Nat) : Res C := do
  let F ← rdP (t.arr .F) center
  let rF := N.div (N.lit 1) F
  let sign := N.lit (if t.useFwd then -1 else 1)
  let fac := N.mul (N.mul sign rF) rF
  let T0 ← rdP (t.carr .tIn) center
  let s ← forRange 0 nw (fresnelStep N t x w fac nw center) (N.czero, T0)
  let norm := N.rect (N.add (N.mul (N.lit 2) (N.re s.1)) (N.lit 1)) (N.mul (N.lit 2) (N.im s.1))
  let scale :=
    if t.useNorm then N.div N.rcprSqrtTwo (N.cabs norm)
    else N.mul (N.mul (N.lit (1/2)) t.dx) rF
  .ok (N.rect (N.mul scale (N.sub (N.re s.2) (N.im s.2)))
    (N.mul scale (N.add (N.re s.2) (N.im s.2))))

/-! ### Legendre polynomials -/

/-- Horner loop `for (ind = 3; ind < bound; ind += 2)` of the Legendre
transforms, e.g. src/fresnel_transform/rss_ringoccs_fresnel_transform_even_polynomial.c
319-323.  State: (accumulator that started at `coeffs[order-1]`, accumulator
that started at `coeffs[order-2]`); pass `j` has `ind = 3 + 2*j`. -/
def hornerStep (N : Num R C) (c : List R) (order : Nat) (x2 : R) (j : Nat) (s : R × R) :
    Res (R × R) := do
  let i1 ← subIdx order (3 + 2 * j)
  let a ← rd c i1
  let i2 ← subIdx order (3 + 2 * j + 1)
  let b ← rd c i2
  .ok (N.add (N.mul s.1 x2) a, N.add (N.mul s.2 x2) b)

/-- Number of passes of `for (ind = 3; ind < bound; ind += 2)`. -/
def hornerPasses (bound : Nat) : Nat := (bound - 3 + 1) / 2

/-- The two accumulators after initialisation and loop; `bound` is the loop bound. -/
def horner (N : Num R C) (c : List R) (order bound : Nat) (x2 : R) : Res (R × R) := do
  let i1 ← subIdx order 1
  let a ← rd c i1
  let i2 ← subIdx order 2
  let b ← rd c i2
  forRange 0 (hornerPasses bound) (hornerStep N c order x2) (a, b)

/-- `(psi on the left, psi on the right)` for even degree:
src/fresnel_transform/rss_ringoccs_fresnel_transform_even_polynomial.c 294-363 and
rss_ringoccs_fresnel_transform_normalized_even_polynomial.c 335-404. -/
def legEvenPsi (N : Num R C) (c : List R) (order : Nat) (kD x : R) : Res (R × R) := do
  let x2 := N.mul x x
  let kDx2 := N.mul kD x2
  let s ← horner N c order (order - 1) x2
  let c0 ← rd c 0
  let even := N.add (N.mul s.1 x2) c0
  let odd := N.mul s.2 x
  .ok (N.mul kDx2 (N.add even odd), N.mul kDx2 (N.sub even odd))

/-- `(psi on the left, psi on the right)` for odd degree:
src/fresnel_transform/rss_ringoccs_fresnel_transform_legendre_odd.c 104-127
(`bound = order - 1`) and rss_ringoccs_fresnel_transform_legendre_odd_norm.c
54-77 (`bound = order`). -/
def legOddPsi (N : Num R C) (bound : Nat) (c : List R) (order : Nat) (kD x : R) : Res (R × R) := do
  let x2 := N.mul x x
  let kDx2 := N.mul kD x2
  let s ← horner N c order bound x2
  let even := N.mul s.2 kDx2
  let odd := N.mul s.1 (N.mul kDx2 x)
  .ok (N.sub even odd, N.add even odd)

/-- Loop body shared by the four Legendre transforms, e.g.
src/fresnel_transform/rss_ringoccs_fresnel_transform_normalized_even_polynomial.c
331-437; pass `n` uses `m = n_pts - n`. The functions without normalisation do
not accumulate `norm` and never use it. -/
def legStep (N : Num R C) (psi : R → Res (R × R)) (t : Tau R C) (x w : List R) (rcprD : R)
    (nw center n : Nat) (s : C × C) : Res (C × C) := do
  let xn ← rd x n
  let p ← psi (N.mul xn rcprD)
  let wn ← rd w n
  let el := N.polar wn (N.neg p.1)
  let er := N.polar wn (N.neg p.2)
  let li ← subIdx center (nw - n)
  let Tl ← rdP (t.carr .tIn) li
  let Tr ← rdP (t.carr .tIn) (center + (nw - n))
  .ok (N.cadd (N.cadd s.1 el) er, N.cadd (N.cadd s.2 (N.cmul el Tl)) (N.cmul er Tr))

/-- Which of the four Legendre functions. -/
inductive Leg
  | odd | even | oddNorm | evenNorm
  deriving DecidableEq, Repr

/-- The phase used by each Legendre function. -/
def legPsi (N : Num R C) (v : Leg) (c : List R) (order : Nat) (kD x : R) : Res (R × R) :=
  match v with
  | .odd => legOddPsi N (order - 1) c order kD x
  | .oddNorm => legOddPsi N order c order kD x
  | .even => legEvenPsi N c order kD x
  | .evenNorm => legEvenPsi N c order kD x

/-- src/fresnel_transform/rss_ringoccs_fresnel_transform_legendre_odd.c 74-148,
rss_ringoccs_fresnel_transform_even_polynomial.c 237-398,
rss_ringoccs_fresnel_transform_legendre_odd_norm.c 24-109,
rss_ringoccs_fresnel_transform_normalized_even_polynomial.c 269-463. -/
def legendre (N : Num R C) (v : Leg) (t : Tau R C) (x w c : List R) (nw center : Nat) :
    Res C := do
  let D ← rdP (t.arr .D) center
  let rcprD := N.div (N.lit 1) D
  let k ← rdP (t.arr .k) center
  let kD := N.mul k D
  let factor ← (match v with
    | .odd | .even => do
      let F ← rdP (t.arr .F) center
      .ok (N.div (N.mul (N.lit (1/2)) t.dx) F)
    | _ => .ok (N.lit 0))
  let s ← forRange 0 nw (legStep N (legPsi N v c t.order kD) t x w rcprD nw center)
    (N.czero, N.czero)
  let T0 ← rdP (t.carr .tIn) center
  let out := N.cadd s.2 T0
  match v with
  | .odd | .even => .ok (diagScale N factor out)
  | _ => .ok (diagScale N (N.div N.rcprSqrtTwo (N.cabs (N.caddr s.1 (N.lit 1)))) out)

/-! ### Newton with interpolated phases -/

/-- `rssringoccs_deg4_interp`,
src/fresnel_transform/rss_ringoccs_fresnel_transform_newton4.c 14-28. -/
def deg4Interp (N : Num R C) (i0 i1 i2 i3 i4 : R) : R × R × R × R × R :=
  let mean0 := N.mul (N.add i1 i3) (N.lit (1/2))
  let mean1 := N.mul (N.add i0 i4) (N.lit (1/2))
  let diff0 := N.sub i3 i1
  let diff1 := N.sub i4 i0
  (i2,
   N.mul (N.sub (N.mul (N.lit 8) diff0) diff1) (N.div (N.lit 1) (N.lit 3)),
   N.sub (N.div (N.mul (N.lit 4) (N.sub (N.mul (N.lit 16) mean0) mean1)) (N.lit 3))
     (N.mul (N.lit 20) i2),
   N.mul (N.sub diff1 (N.mul (N.lit 2) diff0)) (N.div (N.lit 16) (N.lit 3)),
   N.mul (N.lit 64) (N.add i2 (N.div (N.sub mean1 (N.mul (N.lit 4) mean0)) (N.lit 3))))

/-- Values of the quartic at `x` (left, even + odd) and `-x` (right, even - odd),
src/fresnel_transform/rss_ringoccs_fresnel_transform_newton4.c 96-107. -/
def deg4Eval (N : Num R C) (c : R × R × R × R × R) (x : R) : R × R :=
  let xsq := N.mul x x
  let odd := N.mul x (N.add c.2.1 (N.mul xsq c.2.2.2.1))
  let even := N.add c.1 (N.mul xsq (N.add c.2.2.1 (N.mul xsq c.2.2.2.2)))
  (N.add even odd, N.sub even odd)

/-- Loop state of Newton4. -/
structure N4St (R C : Type) where
  l : C
  r : C
  psiL : R
  psiR : R
  out : C

/-- The two scaled data points and phases at window index `n`,
src/fresnel_transform/rss_ringoccs_fresnel_transform_newton4.c 78-92 and 96-110. -/
def n4Point (N : Num R C) (t : Tau R C) (x w : List R) (pc wc : R × R × R × R × R)
    (rw : R) (nw center n : Nat) : Res (C × C × R × R) := do
  let xn ← rd x n
  let psi := deg4Eval N pc (N.mul xn rw)
  let wt := deg4Eval N wc (N.mul xn rw)
  let wn ← rd w n
  let l0 ← subIdx center nw
  let Tl ← rdP (t.carr .tIn) (l0 + n)
  let r0 ← subIdx (center + nw) n
  let Tr ← rdP (t.carr .tIn) r0
  .ok (N.crmul (N.mul wt.1 wn) Tl, N.crmul (N.mul wt.2 wn) Tr, psi.1, psi.2)

/-- Loop body src/fresnel_transform/rss_ringoccs_fresnel_transform_newton4.c 95-130. -/
def n4Step (N : Num R C) (t : Tau R C) (x w : List R) (pc wc : R × R × R × R × R)
    (rw : R) (nw center n : Nat) (s : N4St R C) : Res (N4St R C) := do
  let p ← n4Point N t x w pc wc rw nw center n
  let i1 := N.cFilon11 s.l p.1 s.psiL p.2.2.1 t.dx
  let i2 := N.cFilon11 p.2.1 s.r p.2.2.2 s.psiR t.dx
  .ok { l := p.1, r := p.2.1, psiL := p.2.2.1, psiR := p.2.2.2,
        out := N.cadd (N.cadd s.out i1) i2 }

/-- src/fresnel_transform/rss_ringoccs_fresnel_transform_newton4.c 31-143. -/
def newton4 (N : Num R C) (t : Tau R C) (x w : List R) (nw center : Nat) : Res C := do
  let shift := nw / 2
  let o0 ← subIdx center (2 * shift)
  let widthActual := N.mul (N.mul (N.lit 4) t.dx) (N.ofNat shift)
  let rw := N.div (N.lit 1) widthActual
  let p0 ← phaseWeight N t center o0 none
  let p1 ← phaseWeight N t center (o0 + shift) none
  let p2 ← phaseWeight N t center (o0 + 2 * shift) none
  let p3 ← phaseWeight N t center (o0 + 3 * shift) none
  let p4 ← phaseWeight N t center (o0 + 4 * shift) none
  let pc := deg4Interp N p0.2.1 p1.2.1 p2.2.1 p3.2.1 p4.2.1
  let wc := deg4Interp N p0.1 p1.1 p2.1 p3.1 p4.1
  let Tc ← rdP (t.carr .tIn) center
  let inC := N.crmul p2.1 Tc
  let q ← n4Point N t x w pc wc rw nw center 0
  let s ← forRange 1 (nw - 1) (n4Step N t x w pc wc rw nw center)
    { l := q.1, r := q.2.1, psiL := q.2.2.1, psiR := q.2.2.2, out := N.czero }
  .ok (N.cadd s.out (N.cFilon12 s.l inC s.r s.psiL p2.2.1 s.psiR t.dx))

/-- The phases `psi[n]` at `ind[n]`,
src/fresnel_transform/rss_ringoccs_fresnel_transform_newton8.c 100-119 and
rss_ringoccs_fresnel_transform_newton16.c 247-266. -/
def nodePsi (N : Num R C) (t : Tau R C) (center i : Nat) : Res R := do
  let rx ← rdP (t.arr .rx) i
  let ry ← rdP (t.arr .ry) i
  let rz ← rdP (t.arr .rz) i
  let rho ← rdP (t.arr .rho) i
  let phi ← rdP (t.arr .phi) i
  let rhoc ← rdP (t.arr .rho) center
  let k ← rdP (t.arr .k) center
  .ok (N.statPsi k ⟨rx, ry, rz, rho, phi, rhoc, phi⟩)

/-- `psi[half-1-j]` and `psi[half+j]` for `j = 0 .. half-1` (i.e. the nodes
`center - (j+1)*shift`, `center + (j+1)*shift`), newton8 lines 90-97 and newton16
lines 230-245.  (The code evaluates them in index order; nothing depends on it.) -/
def nodePairs (N : Num R C) (t : Tau R C) (center shift : Nat) (j : Nat) : Nat → Res (List (R × R))
  | 0 => .ok []
  | cnt + 1 => do
    let li ← subIdx center ((j + 1) * shift)
    let l ← nodePsi N t center li
    let r ← nodePsi N t center (center + (j + 1) * shift)
    let rest ← nodePairs N t center shift (j + 1) cnt
    .ok ((l, r) :: rest)

/-- `C##N##0*z[0] + C##N##1*z[1] + ...` (left-associated sum), macros
COEFF_POLY_EVAL of newton8 lines 53-54 and newton16 lines 157-166. -/
def dotRow (N : Num R C) : List ℚ → List R → R
  | [], _ => N.lit 0
  | _, [] => N.lit 0
  | c :: cs, z :: zs => go (N.mul (N.lit c) z) cs zs
where
  go (acc : R) : List ℚ → List R → R
    | [], _ => acc
    | _, [] => acc
    | c :: cs, z :: zs => go (N.add acc (N.mul (N.lit c) z)) cs zs

/-- `coeffs[i]`: even `i` is applied to the differences, odd `i` to the means
(newton8 131-138, newton16 286-301). -/
def interpCoeffs (N : Num R C) (rows : List (List ℚ)) (pairs : List (R × R)) : List R :=
  let diff := pairs.map fun p => N.sub p.2 p.1
  let mean := pairs.map fun p => N.mul (N.add p.2 p.1) (N.lit (1/2))
  rows.mapIdx fun i row => if i % 2 = 0 then dotRow N row diff else dotRow N row mean

/-- Nested Horner form `c0 + z*(c1 + z*(... + z*c_last))`. -/
def nest (N : Num R C) (z : R) : List R → R
  | [] => N.lit 0
  | [c] => c
  | c :: d :: cs => N.add c (N.mul z (nest N z (d :: cs)))

/-- Entries of a list with even / odd index. -/
def evens : List α → List α
  | [] => []
  | [a] => [a]
  | a :: _ :: l => a :: evens l

/-- Macros ODD_POLY_EVAL / EVEN_POLY_EVAL (newton8 56-60, newton16 168-200):
`(psi_even + psi_odd, psi_even - psi_odd)`. -/
def interpPsi (N : Num R C) (coeffs : List R) (x : R) : R × R :=
  let xsq := N.mul x x
  let odd := N.mul x (nest N xsq (evens coeffs))
  let even := N.mul xsq (nest N xsq (evens coeffs.tail))
  (N.add even odd, N.sub even odd)

/-- Loop body newton8 141-167 (`norm` only if `useN`), newton16 304-327. -/
def interpStep (N : Num R C) (useN : Bool) (t : Tau R C) (coeffs x w : List R) (rw : R)
    (nw center n : Nat) (s : C × C) : Res (C × C) := do
  let xn ← rd x n
  let p := interpPsi N coeffs (N.mul xn rw)
  let wn ← rd w n
  let el := N.polar wn (N.neg p.1)
  let er := N.polar wn (N.neg p.2)
  let l0 ← subIdx center nw
  let Tl ← rdP (t.carr .tIn) (l0 + n)
  let r0 ← subIdx (center + nw) n
  let Tr ← rdP (t.carr .tIn) r0
  let norm := if useN then N.cadd (N.cadd s.1 el) er else s.1
  .ok (norm, N.cadd (N.cadd s.2 (N.cmul el Tl)) (N.cmul er Tr))

/-- The macros C00 .. of src/fresnel_transform/rss_ringoccs_fresnel_transform_newton8.c
lines 13-51 as exact decimal fractions (row `i`, column `j` is `C<i><j>`). -/
def rows8 : List (List ℚ) :=
  [[64/10^1, -16/10^1, 304761904761904761904762/10^24, -285714285714285714285714/10^25],
   [1024/10^1, -128/10^1, 16253968253968253968254/10^22, -114285714285714285714286/10^24],
   [-173511111111111111111111/10^21, 120177777777777777777778/10^21, -256/10^1, 248888888888888888888889/10^23],
   [-277617777777777777777778/10^20, 961422222222222222222222/10^21, -136533333333333333333333/10^21, 995555555555555555555556/10^23],
   [131982222222222222222222/10^20, -118328888888888888888889/10^20, 4096/10^1, -455111111111111111111111/10^22],
   [211171555555555555555556/10^19, -946631111111111111111111/10^20, 218453333333333333333333/10^20, -182044444444444444444444/10^21],
   [-291271111111111111111111/10^20, 291271111111111111111111/10^20, -12483047619047619047619/10^19, 208050793650793650793651/10^21],
   [-466033777777777777777778/10^19, 233016888888888888888889/10^19, -665762539682539682539683/10^20, 832203174603174603174603/10^21]]

/-- The macros C00 .. of src/fresnel_transform/rss_ringoccs_fresnel_transform_newton16.c
lines 13-155 as exact decimal fractions (row `i`, column `j` is `C<i><j>`). -/
def rows16 : List (List ℚ) :=
  [[142222222222222222222222/10^22, -497777777777777777777778/10^23, 18101010101010101010101/10^22, -565656565656565656565657/10^24, 139238539238539238539239/10^24, -24864024864024864024864/10^24, 28416028416028416028416/10^25, -1554001554001554001554/10^25],
   [455111111111111111111111/10^21, -796444444444444444444444/10^22, 193077441077441077441077/10^22, -452525252525252525252525/10^23, 891126651126651126651127/10^24, -132608132608132608132608/10^24, 129901844187558473272759/10^25, -621600621600621600621601/10^27],
   [-192028508944318468127992/10^20, 162783311463844797178131/10^20, -656298461439794773128106/10^21, 212132550905884239217573/10^21, -530192572859239525906193/10^22, 954552128647366742604838/10^23, -109627774694441361108028/10^23, 601429751905942382132858/10^25],
   [-614491228621819098009574/10^19, 260453298342151675485009/10^19, -700051692202447758003314/10^20, 169706040724707391374058/10^20, -339323246629913296579963/10^21, 509094468611928929389247/10^22, -50115554146030336506527/10^22, 240571900762376952853143/10^24],
   [915243052949245541838134/10^19, -99909731530472271213012/10^18, 555468824627224627224627/10^19, -197980440567936864233161/10^19, 516592338909375946412983/10^20, -951556556036556036556037/10^21, 110779458785384711310637/10^21, -613090196497603905011312/10^23],
   [292877776943758573388203/10^17, -159855570448755633940819/10^17, 592500079602372935706269/10^18, -158384352454349491386528/10^18, 330619096902000605704309/10^19, -507496829886163219496553/10^20, 506420383018901537420056/10^21, -245236078599041562004525/10^22],
   [-206747214159514011365863/10^17, 252997018603331373701744/10^17, -166516088008465608465608/10^17, 697344136453066823437194/10^18, -196728720830883793846757/10^18, 378097642328042328042328/10^19, -451567826298255927885557/10^20, 254078821085635900450715/10^21],
   [-661591085310444836370762/10^16, 404795229765330197922791/10^16, -177617160542363315696649/10^16, 557875309162453458749755/10^17, -125906381331765628061924/10^17, 201652075908289241622575/10^18, -206431006307774138461969/10^19, 101631528434254360180286/10^20],
   [24534591874368578707203/10^15, -319145191368214775622183/10^16, 231200096891710758377425/10^16, -108689268898138349990202/10^16, 340738911667646482461297/10^17, -69932542581002771478962/10^17, 870587261767587693513619/10^19, -503490259287253996248705/10^20],
   [785106939979794518630497/10^15, -510632306189143640995493/10^15, 246613436684491475602587/10^15, -869514151185106799921615/10^16, 21807290346729374877523/10^15, -37297356043201478122113/10^16, 397982748236611517034797/10^18, -201396103714901598499482/10^19],
   [-156009237308751714677641/10^15, 210373440244913188320596/10^15, -161601501569169793169793/10^15, 821088362404204300500597/10^16, -281265918089109792813497/10^16, 628027925918229918229918/10^17, -831249438008729267988527/10^18, 501932650344004418078492/10^19],
   [-49922955938800548696845/10^13, 336597504391861101312953/10^14, -172374935007114446047779/10^14, 656870689923363440400477/10^15, -180010187577030267400638/10^15, 334948227156389289722623/10^16, -379999743089704808223327/10^17, 200773060137601767231397/10^18],
   [499875950703570448755634/10^15, -689484069935959239662943/10^15, 550020246698912938912939/10^15, -294597738972637129674167/10^15, 107882559893825790122086/10^15, -260364613821970621970622/10^16, 373671436503754133383763/10^17, -241078346131454279602428/10^18],
   [159960304225142543601803/10^13, -110317451189753478346071/10^13, 586688263145507134840468/10^14, -235678191178109703739333/10^14, 690448383320485056781353/10^15, -138861127371717665050998/10^15, 170821228116001889546863/10^16, -964313384525817118409711/10^18],
   [-630385435370019876263262/10^15, 882539609518027826768568/10^15, -722077862332931858265192/10^15, 40115436796273992125844/10^14, -154290141524130738945554/10^15, 396746078204907614431424/10^16, -617160566096522955782215/10^17, 440828975783230682701582/10^18],
   [-201723339318406360404244/10^13, 141206337522884452282971/10^13, -770216386488460648816204/10^14, 320923494370191937006752/10^14, -987456905754436729251544/10^15, 211597908375950727696759/10^15, -282130544501267636929013/10^16, 176331590313292273080633/10^17]]

/-- src/fresnel_transform/rss_ringoccs_fresnel_transform_newton8.c 63-175
(`sixteen = false`: `shift = nw_pts >> 2`, window normalisation only if
`use_norm`, no scaling at all otherwise) and
rss_ringoccs_fresnel_transform_newton16.c 203-332 (`sixteen = true`:
`shift = nw_pts >> 3`, always normalised). -/
def newtonInterp (N : Num R C) (sixteen : Bool) (t : Tau R C) (x w : List R) (nw center : Nat) :
    Res C := do
  let half := if sixteen then 8 else 4
  let shift := nw / half
  let widthActual := N.mul (N.mul (N.ofNat (2 * half)) t.dx) (N.ofNat shift)
  let rw := N.div (N.lit 1) widthActual
  let T0 ← rdP (t.carr .tIn) center
  let pairs ← nodePairs N t center shift 0 half
  let coeffs := interpCoeffs N (if sixteen then rows16 else rows8) pairs
  let useN := sixteen || t.useNorm
  let s ← forRange 0 nw (interpStep N useN t coeffs x w rw nw center) (N.cone, T0)
  let sc := N.div N.rcprSqrtTwo (N.cabs s.1)
  .ok (if sixteen then N.cmul (N.rect sc sc) s.2
       else if t.useNorm then N.cmul s.2 (N.rect sc sc) else s.2)

/-! ### All of them -/

/-- Names of the transforms that the selection tables and drivers can call. -/
inductive Xf
  | riemann | filon01 | filon11 | filon02 | filon12 | elliptical | perturbed
  | newton4 | newton8 | newton16 | fresnel | leg (v : Leg)
  deriving DecidableEq, Repr

/-- Meaning of a name: `x` and `c` (coefficients) are only used by some. -/
def runXf (N : Num R C) (f : Xf) (t : Tau R C) (x w c : List R) (nw center : Nat) : Res C :=
  match f with
  | .riemann => riemann N t w nw center
  | .filon01 => filon1 N true t w nw center
  | .filon11 => filon1 N false t w nw center
  | .filon02 => filon2 N true t w nw center
  | .filon12 => filon2 N false t w nw center
  | .elliptical => elliptical N t w nw center
  | .perturbed => perturbed N t w nw center
  | .newton4 => newton4 N t x w nw center
  | .newton8 => newtonInterp N false t x w nw center
  | .newton16 => newtonInterp N true t x w nw center
  | .fresnel => fresnel N t x w nw center
  | .leg v => legendre N v t x w c nw center

end Verif
