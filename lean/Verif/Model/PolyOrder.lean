import Verif.Model.PowerFit

/-!
# The order of the polynomial for the frequency offset

Simplifications: exact arithmetic of rational numbers, with the results of NumPy for divisions by 0; `np.polyfit` is a function `pf`
that is given.
-/
namespace Verif.Cal
open Verif.Rsr Verif.Geo

/-- rss_ringoccs/calibration/freq_offset_fit.py 385 and 401-403: whether `F > 1.`; `s1`, `s2` are the sums of squares and `df` is
`df2` (`df1 - df2` is 1).  With `df = 0` the value of `F` is 0 or NaN; with `s2 = 0` it is infinite or NaN. -/
def fAbove (s1 s2 : ℚ) (df : ℤ) : Bool :=
  if df = 0 then false
  else if s2 = 0 then decide (0 < df ∧ s2 < s1 ∨ df < 0 ∧ s1 < s2)
  else decide (1 < (s1 - s2) / (s2 / df))

/-- rss_ringoccs/calibration/freq_offset_fit.py 385-403, from the moment where `polyord1` is `k`. -/
def orderLoop (pf : Nat → List ℚ → List ℚ → List ℚ) (xs ys : List ℚ) (top : Nat) : Nat → Nat → Nat
  | 0, k => k
  | fuel + 1, k =>
    if fAbove (residue (pf k xs ys) xs ys) (residue (pf (k + 1) xs ys) xs ys) (ys.length - (k + 2)) ∧ k < top then
      orderLoop pf xs ys top fuel (k + 1)
    else k

/-- rss_ringoccs/calibration/freq_offset_fit.py 357-409; `np.polyfit` refuses an empty list (a `TypeError`). -/
def polyOrder (pf : Nat → List ℚ → List ℚ → List ℚ) (xs ys : List ℚ) (maxOrder : Nat) : Py Nat :=
  if xs = [] ∨ xs.length ≠ ys.length then .error .type
  else
    let m := if ys.length < maxOrder then ys.length - 1 else maxOrder
    let top := if m < 1 then 1 else m
    .ok (orderLoop pf xs ys top top 1)

end Verif.Cal
