import Verif.Model.Checks
import Verif.Model.Transform
import Verif.Spec.Names

/-!
# Specification of what a driver may touch and of the windows it uses (C32-C35, C60)
-/
namespace Verif

/-- The first `nw` entries of `buf` are the window of row `c0` (`Compute_Window`). -/
def HoldsWindow (N : Num Dbl Cpx) (t : TauD) (nw c0 : Nat) (buf : List Dbl) : Prop :=
  nw / 2 ≤ c0 ∧ ∀ j, j < nw → ∃ r rc wc, rdP (t.arr .rho) (c0 - nw / 2 + j) = .ok r ∧
    rdP (t.arr .rho) c0 = .ok rc ∧ rdP (t.arr .w) c0 = .ok wc ∧
    buf[j]? = some (N.winFn t.window (N.sub r rc) wc)

/-- The first `nw` entries of `x`, `w` are the displacements (or `pi/2 x^2`) and the
window of row `c0`. -/
def HoldsHalf (N : Num Dbl Cpx) (sq : Bool) (t : TauD) (nw c0 : Nat) (x w : List Dbl) : Prop :=
  nw ≤ x.length ∧ nw ≤ w.length ∧ ∀ j, j < nw → ∃ wc, rdP (t.arr .w) c0 = .ok wc ∧
    x[j]? = some (if sq then
      N.mul (N.mul (N.sub (N.ofNat j) (N.ofNat nw)) t.dx)
        (N.mul N.piByTwo (N.mul (N.sub (N.ofNat j) (N.ofNat nw)) t.dx))
      else N.mul (N.sub (N.ofNat j) (N.ofNat nw)) t.dx) ∧
    w[j]? = some (N.winFn t.window (N.mul (N.sub (N.ofNat j) (N.ofNat nw)) t.dx) wc)

namespace Spec

/-- `u` differs from `t` only in `T_out`, and there only in rows `lo .. hi-1`. -/
structure WritesOnly (lo hi : Nat) (t u : TauD) : Prop where
  arr : ∀ f, u.arr f = t.arr f
  tIn : u.carr .tIn = t.carr .tIn
  tFwd : u.carr .tFwd = t.carr .tFwd
  rest : u = { t with carr := u.carr }
  null : t.carr .tOut = none → u.carr .tOut = none
  out : ∀ l, t.carr .tOut = some l → ∃ l', u.carr .tOut = some l' ∧ l'.length = l.length ∧
    ∀ i, (i < lo ∨ hi ≤ i) → l'[i]? = l[i]?

/-- Row `i` of `T_out` is `v`. -/
def OutRow (u : TauD) (i : Nat) (v : Cpx) : Prop := ∃ l, u.carr .tOut = some l ∧ l[i]? = some v

/-- The row-dependent sample spacing used by the Newton driver (first two radii). -/
def FirstSpacing (N : Num Dbl Cpx) (t : TauD) (i : Nat) (twoDx : Dbl) : Prop :=
  ∃ rho r0 r1, t.arr .rho = some rho ∧ rho[i]? = some r0 ∧ rho[i + 1]? = some r1 ∧
    twoDx = N.mul (N.lit 2) (N.sub r1 r0)

/-- The width of row `c0` is `w0`, that of row `i` is `wi`, and they are less than
`twoDx` apart (as the machine computes it; trivially so if they are equal). -/
def NearWidth (N : Num Dbl Cpx) (t : TauD) (twoDx : Dbl) (c0 i : Nat) (w0 wi : Dbl) : Prop :=
  ∃ w, t.arr .w = some w ∧ w[c0]? = some w0 ∧ w[i]? = some wi ∧
    ((N.abs (N.sub w0 wi)).ge twoDx = false ∨ w0 = wi)

/-- Row `i` of `T_out` is the value of transform `f` at row `i` with the full window
(`nw = 2 (w0/twoDx) + 1` points) of row `c0`, whose width `w0` is near that of row `i`. -/
def FullWindowValue (N : Num Dbl Cpx) (f : Xf) (twoDx : Dbl) (t u : TauD) (c0 i : Nat) : Prop :=
  ∃ w0 wi q w v, NearWidth N t twoDx c0 i w0 wi ∧ (N.div w0 twoDx).toSize = .ok q ∧
    HoldsWindow N t (2 * q + 1) c0 w ∧ runXf N f t [] w [] (2 * q + 1) i = .ok v ∧ OutRow u i v

/-- Row `i` of `T_out` is the value of transform `f` with coefficients `c` at row `i`
with the half window (`nw = w0/twoDx` points) of row `c0`, whose width `w0` is near that of
row `i`. -/
def HalfWindowValue (N : Num Dbl Cpx) (f : Xf) (c : List Dbl) (sq : Bool) (twoDx : Dbl)
    (t u : TauD) (c0 i : Nat) : Prop :=
  ∃ w0 wi nw x w v, NearWidth N t twoDx c0 i w0 wi ∧ (N.div w0 twoDx).toSize = .ok nw ∧
    HoldsHalf N sq t nw c0 x w ∧ runXf N f t x w c nw i = .ok v ∧ OutRow u i v

/-- The coefficients of the Legendre transforms at row `i`. -/
def LegendreCoeffs (N : Num Dbl Cpx) (t : TauD) (i : Nat) (c : List Dbl) : Prop :=
  ∃ Bs phis B phi, t.arr .B = some Bs ∧ Bs[i]? = some B ∧ t.arr .phi = some phis ∧
    phis[i]? = some phi ∧ c.length = t.order ∧
    let a := N.mul (N.cosd B) (N.cosd phi)
    let b := N.mul (N.mul (N.cosd B) (N.sind phi)) (N.mul (N.cosd B) (N.sind phi))
    ∀ j, j < t.order → c[j]? = some (N.legendreL a
      (N.mul b (N.div (N.lit (1/2)) (N.sub (N.lit 1) b))) t.order j)

/-- Which Legendre transform: by parity of the polynomial degree `order + 1` (`order`
coefficients, lowest degree 2) and normalisation. -/
def legendreOf (order : Nat) (norm : Bool) : Leg :=
  if order % 2 = 0 then (if norm then .oddNorm else .odd) else (if norm then .evenNorm else .even)

end Spec
end Verif
