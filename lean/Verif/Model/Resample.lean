import Verif.Model.Gaps

/-!
# Resampling of the signal

Simplifications: exact arithmetic of rational numbers; a signal is the list of its pairs (I, Q).  `Py`, `Exn`, `pyRound`:
`Verif.Model.Rsr`; `interp1d`: `Verif.Model.Gaps`.
-/
namespace Verif.Cal
open Verif.Rsr Verif.Geo

/-- rss_ringoccs/calibration/resample_IQ.py 42-43: the loop, at most `fuel` steps (`none`: it is not over by then). -/
def climb (step goal : ℚ) : Nat → ℚ → Option ℚ
  | fuel, r => if r < goal then
      match fuel with
      | 0 => none
      | n + 1 => climb step goal n (r + step)
    else some r

/-- What `pre_resample` returns (the factor `p` is always 1). -/
structure Pre where
  grid : List ℚ
  vec : List ℚ
  q : Nat
  res : ℚ
  deriving DecidableEq

/-- rss_ringoccs/calibration/resample_IQ.py 54-56. -/
def coarse (ts : ℚ) : ℚ :=
  let res : ℚ := pyRound (40 * ts) / 40
  if res < ts then res + 1 / 40 else res

/-- rss_ringoccs/calibration/resample_IQ.py 44-91 with the value of `r0`.  `freq` is not 0.  For a range of length 0 the factor in
line 76 would be infinite, which cannot be rounded (an `OverflowError`, here `value`); so are arrays of different lengths
(`interp1d`) and a factor 0 (division by zero in line 78). -/
def preResampleAt (r0 : ℚ) (rho vec : List ℚ) (freq : ℚ) : Py Pre :=
  let dr := |rho.getD (rho.length - 1) 0 - r0|
  let ts := dr / ((rho.length : ℚ) - 1)
  let res : ℚ := if 1 / freq < ts then coarse ts else pyRound (1 / freq * 1000) / 1000
  let freq' := if 1 / freq < ts then 1 / coarse ts else freq
  if ts * freq' = 0 then .error .value
  else
    let q := pyRound (1 / (ts * freq'))
    if q = 0 then .error .value
    else
      let drGrid := 1 / (q * freq')
      let n := (pyRound (dr / drGrid)).toNat
      let grid := (List.range n).map fun i : Nat => r0 + drGrid * (i : ℚ)
      if rho.length = vec.length then .ok ⟨grid, grid.map (interp1d rho vec), q.toNat, res⟩ else .error .value

/-- rss_ringoccs/calibration/resample_IQ.py 14-91, for at least two radii. -/
def preResample (fuel : Nat) (rho vec : List ℚ) (freq : ℚ) : Option (Py Pre) :=
  (climb (1 / freq) (rho.getD 0 0) fuel (pyRound (rho.getD 0 0))).map fun r0 => preResampleAt r0 rho vec freq

/-- The number `x[k]`, 0 outside of the list. -/
def atInt (x : List ℚ) (k : Int) : ℚ := if 0 ≤ k then x.getD k.toNat 0 else 0

/-- `scipy.signal.resample_poly(x, 1, q)`, from its documentation: a copy for `q = 1`, else every `q`-th value of the convolution
with the filter `h q` of `20 q + 1` values (the middle one has index 0); outside of the list the signal counts as 0. -/
def resamplePoly (h : Nat → Int → ℚ) (q : Nat) (x : List ℚ) : List ℚ :=
  if q = 1 then x
  else (List.range ((x.length + q - 1) / q)).map fun i : Nat =>
    ((List.range (20 * q + 1)).map fun j : Nat => h q ((j : Int) - 10 * q) * atInt x ((q * i : Nat) - ((j : Int) - 10 * q))).sum

/-- rss_ringoccs/calibration/resample_IQ.py 94-154: radii and signal.  The two calls in lines 141-144 return the same radii. -/
def resampleIQ (h : Nat → Int → ℚ) (fuel : Nat) (rho : List ℚ) (iq : List (ℚ × ℚ)) (dr : ℚ) :
    Option (Py (List ℚ × List (ℚ × ℚ))) :=
  if rho.length < 2 then some (.error .index)
  else
    let down := rho.getD 1 0 - rho.getD 0 0 < 0
    let rho' := if down then rho.reverse else rho
    let iq' := if down then iq.reverse else iq
    if dr = 0 then some (.error .zeroDivision)
    else
      match preResample fuel rho' (iq'.map (·.1)) (1 / dr), preResample fuel rho' (iq'.map (·.2)) (1 / dr) with
      | some a, some b => some do
        let a ← a
        let b ← b
        let i := resamplePoly h a.q a.vec
        let q := resamplePoly h b.q b.vec
        match b.grid with
        | [] => .error .index
        | r0 :: _ => pure ((List.range i.length).map fun k : Nat => r0 + b.res * (k : ℚ), i.zip q)
      | _, _ => none

end Verif.Cal
