import Verif.Model.PowerNorm

/-!
# Fit of the power in free space

Simplifications: exact arithmetic of rational numbers; the kind of fit is `'poly'`; `np.polyfit` is a function `pf` that is given.
-/
namespace Verif.Cal
open Verif.Rsr Verif.Geo

/-- `np.polyval`: the coefficient of the highest power comes first. -/
def polyval (c : List ℚ) (x : ℚ) : ℚ := c.foldl (fun y a => y * x + a) 0

/-- What `fit_freespace_power` sets; `chi2 = none`: not finite. -/
structure PowerFit where
  order : Nat
  coef : List ℚ
  fit : List ℚ
  chi2 : Option ℚ
  deriving DecidableEq

/-- Sum of the squares of what the fit leaves. -/
def residue (c xs ys : List ℚ) : ℚ := (List.zipWith (fun x y => (polyval c x - y) ^ 2) xs ys).sum

/-- rss_ringoccs/calibration/power_normalization.py 345-363.  `pf order xs ys` are the coefficients that `np.polyfit` finds, which
refuses an empty list (a `TypeError`). -/
def fitPower (pf : Nat → List ℚ → List ℚ → List ℚ) (spm power : List ℚ) (mask : List Bool) (order : Nat) : Py PowerFit := do
  let xs ← npMask mask spm
  let ys ← npMask mask power
  if xs = [] then .error .type
  else
    let v : ℚ := ys.length - (order + 1)
    let c := pf order xs ys
    let low ← pyMinL (spm.map (polyval c))
    let order' := if low < 0 then 1 else order
    let c' := if low < 0 then pf 1 xs ys else c
    pure ⟨order', c', spm.map (polyval c'), if v = 0 then none else some (residue c' xs ys / v)⟩

end Verif.Cal
