import Verif.Model.Checks

/-!
# Specification of the processing range and the window widths (C09-C12)
-/
namespace Verif.Spec

/-- Ascending, NaN-free radii. -/
def Ascending (l : List Dbl) : Prop :=
  ∀ (i j : Nat) (x y : Dbl), i ≤ j → l[i]? = some x → l[j]? = some y → x.le y = true

/-- Row `n` is in the processing range. -/
def InRange (t : TauD) (n : Nat) : Prop := t.start ≤ n ∧ n < t.start + t.nUsed

/-- `[rho[n] - w[n]/2, rho[n] + w[n]/2]` lies strictly between the first and the
last radius. -/
def WindowInside (N : Num Dbl Cpx) (rho w : List Dbl) (n : Nat) : Prop :=
  ∃ r ω first last, rho[n]? = some r ∧ w[n]? = some ω ∧
    rho[0]? = some first ∧ rho[rho.length - 1]? = some last ∧
    first.lt (N.sub r (N.mul (N.lit (1/2)) ω)) = true ∧
    (N.add r (N.mul (N.lit (1/2)) ω)).lt last = true

/-- `alpha` of a row from its wavenumber and radial velocity. -/
def alphaOf (N : Num Dbl Cpx) (L : Lib) (t : TauD) (k v : Dbl) : Dbl :=
  let a := N.mul (N.mul L.speedOfLight k) t.sigma
  N.mul a (N.div (N.mul a (N.lit (1/2))) v)

/-- `P` of a row. -/
def pOf (N : Num Dbl Cpx) (L : Lib) (t : TauD) (f k v : Dbl) : Dbl :=
  N.div t.res (N.mul (N.mul (alphaOf N L t k v) f) f)

/-- Width with the b-factor from a row's own data. -/
def bfacWidth (N : Num Dbl Cpx) (L : Lib) (t : TauD) (f k v : Dbl) : Dbl :=
  N.div (N.mul t.normeq (N.resolutionInverse (pOf N L t f k v))) (alphaOf N L t k v)

/-- Width without the b-factor. -/
def plainWidth (N : Num Dbl Cpx) (t : TauD) (f : Dbl) : Dbl :=
  N.mul (N.mul (N.mul (N.lit 2) f) f) (N.div t.normeq t.res)

end Verif.Spec
