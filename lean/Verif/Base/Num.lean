import Verif.Base.Res
import Verif.Base.Dbl

/-!
# Arithmetic and library functions as parameters

`Num R C` bundles the operations on reals `R` and complex numbers `C` that the
code performs.  With `R = Dbl` *nothing at all* is assumed about them (any
rounding mode, any libm); with `R = ℝ`, `C = ℂ` they are instantiated exactly.
-/
namespace Verif

/-- A C complex number (`tmpl_ComplexDouble`) on doubles. -/
structure Cpx where
  re : Dbl
  im : Dbl
  deriving DecidableEq

/-- The window functions that can be stored in `window_func`.
Models src/tau/rss_ringoccs_tau_set_window_type.c lines 45-99 (the libtmpl
functions themselves are not modelled here). -/
inductive Win
  | rect | coss | kb20 | kb25 | kb35 | kbmd20 | kbmd25 | kbmd35
  deriving DecidableEq, Repr

/-- `tmpl_CylFresnelGeometryDouble`: spacecraft position, ring intercept point
and dummy point.  The code stores the last two as Cartesian points made with
`tmpl_2DDouble_Polard`; here the polar coordinates (radius, degrees) themselves
are kept, the conversion is part of the libtmpl functions below. -/
structure Geo (R : Type) where
  rx : R
  ry : R
  rz : R
  rho : R
  phi : R
  rho0 : R
  phi0 : R

/-- Operations used by the code.  `lit` turns a decimal literal or an integer
into an `R`.  The libtmpl functions appear under their own names, their source
is not part of /repo (git submodule `libtmpl` is empty) so that they are
arbitrary functions here. -/
structure Num (R C : Type) : Type where
  lit : ℚ → R
  add : R → R → R
  sub : R → R → R
  mul : R → R → R
  div : R → R → R
  neg : R → R
  abs : R → R
  sqrt : R → R
  /-- `tmpl_CDouble_Rect` -/
  rect : R → R → C
  /-- `tmpl_CDouble_Polar` (modulus, argument in radians) -/
  polar : R → R → C
  /-- `tmpl_CDouble_Polard` (modulus, argument in degrees) -/
  polard : R → R → C
  cadd : C → C → C
  csub : C → C → C
  cmul : C → C → C
  /-- `tmpl_CDouble_Multiply_Real` -/
  crmul : R → C → C
  conj : C → C
  cabs : C → R
  /-- `tmpl_Double_Frequency_To_Wavelength` -/
  freqToWavelength : R → R
  /-- `tmpl_Double_Wavelength_To_Wavenumber` -/
  wavelengthToWavenumber : R → R
  /-- `tmpl_Double_Cyl_Fresnel_Scale_Deg` (lambda, D, phi, B) -/
  cylFresnelScaleDeg : R → R → R → R → R
  /-- `tmpl_Double_Resolution_Inverse` -/
  resolutionInverse : R → R
  /-- `tau->window_func(x, W)` for each selectable window -/
  winFn : Win → R → R → R
  /-- `tmpl_double_pi_by_two` -/
  piByTwo : R
  /-- `tmpl_Double_Rcpr_Sqrt_Two` -/
  rcprSqrtTwo : R
  /-- `tmpl_Double_Sqrt_Two` -/
  sqrtTwo : R
  cos : R → R
  cosd : R → R
  sind : R → R
  re : C → R
  im : C → R
  /-- `tmpl_CDouble_AddTo_Real` -/
  caddr : C → R → C
  /-- `tmpl_CDouble_Midpoint` -/
  cmid : C → C → C
  /-- `tmpl_Double_Stationary_Cyl_Fresnel_Kernel` (k, geo; EPS and toler fixed) -/
  statKernel : R → Geo R → C
  /-- `tmpl_Double_Stationary_Cyl_Fresnel_Phase_And_Weight`:
  (weight, psi, returned angle) -/
  statPhaseWeight : R → Geo R → R × R × R
  /-- `tmpl_Double_Stationary_Cyl_Fresnel_Psi` -/
  statPsi : R → Geo R → R
  /-- `tmpl_Double_Stationary_Elliptical_Fresnel_Psi_Newton`, arguments in order -/
  ellPhi : R → R → R → R → R → R → R → R → R → R → R → R
  /-- `tmpl_Double_Cyl_Fresnel_Observer_Distance` -/
  obsDist : R → R → R → R → R → R
  /-- `tmpl_Double_Ideal_Cyl_Fresnel_Psi_Deg` -/
  idealPsiDeg : R → R → R → R → R → R → R → R
  /-- `tmpl_Double_Ideal_Stationary_Cyl_Fresnel_Phi_Newton_Deg` -/
  idealPhiDeg : R → R → R → R → R → R → R → R
  /-- `tmpl_CDouble_Filon01_Integrand` -/
  cFilon01 : C → R → R → R → C
  /-- `tmpl_Double_Filon01_Integrand` -/
  rFilon01 : R → R → R → R → C
  /-- `tmpl_CDouble_Filon11_Integrand` -/
  cFilon11 : C → C → R → R → R → C
  /-- `tmpl_Double_Filon11_Integrand` -/
  rFilon11 : R → R → R → R → R → C
  /-- `tmpl_CDouble_Filon02_Integrand` -/
  cFilon02 : C → C → R → R → R → R → C
  /-- `tmpl_CDouble_Filon12_Integrand` -/
  cFilon12 : C → C → C → R → R → R → R → C
  /-- entry `i` of the array filled by `tmpl_Double_Fresnel_Legendre_L`
  (alpha, beta, order, i) -/
  legendreL : R → R → Nat → Nat → R

end Verif
