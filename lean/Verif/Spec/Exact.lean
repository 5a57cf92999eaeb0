import Verif.Model.Transform
import Mathlib.Analysis.Real.Sqrt
import Mathlib.Analysis.Complex.Norm
import Mathlib.Analysis.Complex.Trigonometric
import Mathlib.Algebra.BigOperators.Intervals

/-!
# Specification: exact real and complex arithmetic (C21-C31, C36)

The value theorems about the transforms are about `Num ℝ ℂ` records whose arithmetic is
the mathematical one.  The libtmpl special functions stay arbitrary; the Filon
integrands are only required to be linear in the data, which is their definition as
integrals over one or two intervals.
-/
namespace Verif

/-- The arithmetic operations are the mathematical ones. -/
structure Num.IsExact (N : Num ℝ ℂ) : Prop where
  lit : ∀ q : ℚ, N.lit q = (q : ℝ)
  add : ∀ a b, N.add a b = a + b
  sub : ∀ a b, N.sub a b = a - b
  mul : ∀ a b, N.mul a b = a * b
  div : ∀ a b, N.div a b = a / b
  neg : ∀ a, N.neg a = -a
  rect : ∀ a b : ℝ, N.rect a b = a + b * Complex.I
  polar : ∀ r θ : ℝ, N.polar r θ = r * Complex.exp (θ * Complex.I)
  cadd : ∀ a b, N.cadd a b = a + b
  cmul : ∀ a b, N.cmul a b = a * b
  crmul : ∀ (r : ℝ) z, N.crmul r z = r * z
  conj : ∀ z, N.conj z = starRingEnd ℂ z
  cabs : ∀ z, N.cabs z = ‖z‖
  rcprSqrtTwo : N.rcprSqrtTwo = 1 / √2
  sqrtTwo : N.sqrtTwo = √2
  re : ∀ z, N.re z = z.re
  im : ∀ z, N.im z = z.im
  caddr : ∀ z (r : ℝ), N.caddr z r = z + r
  cmid : ∀ a b, N.cmid a b = (a + b) / 2

/-- The complex Filon integrands are linear in the data and agree with the real ones. -/
structure Num.FilonLinear (N : Num ℝ ℂ) : Prop where
  f01 : ∀ (z : ℂ) a b d, N.cFilon01 z a b d = z * N.rFilon01 1 a b d
  r01 : ∀ (r a b d : ℝ), N.rFilon01 r a b d = r * N.rFilon01 1 a b d
  f11 : ∀ (z w : ℂ) a b d, N.cFilon11 z w a b d = z * N.rFilon11 1 0 a b d + w * N.rFilon11 0 1 a b d
  r11 : ∀ (r s a b d : ℝ), N.rFilon11 r s a b d = r * N.rFilon11 1 0 a b d + s * N.rFilon11 0 1 a b d
  f02 : ∀ (z w : ℂ) a b c d, N.cFilon02 z w a b c d =
    z * N.cFilon02 1 0 a b c d + w * N.cFilon02 0 1 a b c d
  f12 : ∀ (z w v : ℂ) a b c d, N.cFilon12 z w v a b c d =
    z * N.cFilon12 1 0 0 a b c d + w * N.cFilon12 0 1 0 a b c d + v * N.cFilon12 0 0 1 a b c d

/-- A concrete exact arithmetic; the special functions are simple stand-ins.  It only
serves to show that the assumptions can be met. -/
noncomputable def realNum : Num ℝ ℂ where
  lit q := (q : ℝ)
  add := (· + ·)
  sub := (· - ·)
  mul := (· * ·)
  div := (· / ·)
  neg a := -a
  abs a := |a|
  sqrt := Real.sqrt
  rect a b := a + b * Complex.I
  polar r θ := r * Complex.exp (θ * Complex.I)
  polard r _ := r
  cadd := (· + ·)
  csub := (· - ·)
  cmul := (· * ·)
  crmul r z := r * z
  conj := starRingEnd ℂ
  cabs z := ‖z‖
  freqToWavelength f := 1 / f
  wavelengthToWavenumber l := 1 / l
  cylFresnelScaleDeg l _ _ _ := l
  resolutionInverse p := p
  winFn _ _ _ := 1
  piByTwo := 2
  rcprSqrtTwo := 1 / √2
  sqrtTwo := √2
  cos := Real.cos
  cosd _ := 1
  sind _ := 0
  re := Complex.re
  im := Complex.im
  caddr z r := z + r
  cmid a b := (a + b) / 2
  statKernel _ _ := 1
  statPhaseWeight _ g := (1, 0, g.phi0)
  statPsi _ g := g.rho - g.rho0
  ellPhi _ _ _ _ _ _ _ _ _ _ _ := 0
  obsDist _ _ _ _ _ := 1
  idealPsiDeg _ _ _ _ _ _ _ := 0
  idealPhiDeg _ _ _ _ _ _ _ := 0
  cFilon01 z _ _ d := d * z
  rFilon01 r _ _ d := (d * r : ℝ)
  cFilon11 z w _ _ d := d * (z + w) / 2
  rFilon11 r s _ _ d := (d * (r + s) / 2 : ℝ)
  cFilon02 z w _ _ _ d := d * (z + w)
  cFilon12 z w v _ _ _ d := d * (z + 4 * w + v) / 3
  legendreL _ _ _ i := i

theorem realNum_exact : realNum.IsExact := by
  constructor <;> intros <;> rfl

theorem realNum_filon : realNum.FilonLinear := by
  constructor <;> intros <;> simp only [realNum] <;> push_cast <;> ring

namespace Spec

/-- The object `t` with other data in `T_in`. -/
def withData {R C : Type} (t : Tau R C) (l : List C) : Tau R C := t.setC .tIn (some l)

/-- The samples within `n` of `c`. -/
def window (c n : Nat) : Finset Nat := Finset.Icc (c - n) (c + n)

/-- The value of sample `i` (0 outside the array). -/
def sample (l : List ℂ) (i : Nat) : ℂ := l.getD i 0

/-- Entry `i` of an array of reals (0 outside). -/
def val (w : List ℝ) (i : Nat) : ℝ := w.getD i 0

/-- Linear combination of the samples within `n` of `c`. -/
noncomputable def windowSum (K : Nat → ℂ) (l : List ℂ) (c n : Nat) : ℂ :=
  ∑ i ∈ window c n, K i * sample l i

/-- The kernel of a sum over a half-window array of `n` points around `c`: the centre has
weight 1, the sample at distance `d` uses entry `n - d` of the window array and the phase
given for that entry (`φl` to the left of the centre, `φr` to the right). -/
noncomputable def halfKer (w : List ℝ) (φl φr : Nat → ℝ) (n c i : Nat) : ℂ :=
  if i = c then 1
  else if i < c then val w (n - (c - i)) * Complex.exp (-φl (n - (c - i)) * Complex.I)
  else val w (n - (i - c)) * Complex.exp (-φr (n - (i - c)) * Complex.I)

/-- The Legendre functions that normalise. -/
def legNorm : Leg → Bool
  | .oddNorm | .evenNorm => true
  | .odd | .even => false

/-- What each transform needs to stay inside arrays of `A` entries: the size of the window
arrays and room for the window.  `q` is the number of samples on each side. -/
structure Fits {R C : Type} (f : Xf) (t : Tau R C) (x w c : List R) (nw center A q : Nat) : Prop where
  left : q ≤ center
  right : center + q < A
  wins : nw ≤ w.length
  size : match f with
    | .riemann | .filon01 | .filon11 | .elliptical | .perturbed => nw = 2 * q + 1
    | .filon02 | .filon12 => nw = 2 * q + 1 ∧ 0 < q
    | .newton4 => nw = q ∧ nw ≤ x.length ∧ 0 < q
    | .newton8 | .newton16 | .fresnel => nw = q ∧ nw ≤ x.length
    | .leg _ => nw = q ∧ nw ≤ x.length ∧ 2 ≤ t.order ∧ t.order ≤ c.length

end Spec
end Verif
