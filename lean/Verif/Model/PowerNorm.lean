import Verif.Model.Resample

/-!
# Power normalisation

Simplifications: exact arithmetic of rational numbers, no power is NaN.
-/
namespace Verif.Cal
open Verif.Rsr Verif.Geo

/-- `np.linspace(a, b, num=m)`. -/
def linspace (a b : ℚ) (m : Nat) : List ℚ :=
  if m = 1 then [a] else (List.range m).map fun i : Nat => a + (i : ℚ) * ((b - a) / ((m : ℚ) - 1))

/-- rss_ringoccs/calibration/power_normalization.py 536-550: times and powers.  `h`: the filters of `resamplePoly`.  Equal first
times would give an infinite factor, which cannot be rounded (an `OverflowError`, here `value`); `resample_poly` refuses a factor
less than 1. -/
def downsampleIQ (h : Nat → Int → ℚ) (spm : List ℚ) (iq : List (ℚ × ℚ)) (dtDown : ℚ) : Py (List ℚ × List ℚ) :=
  if spm.length < 2 then .error .index
  else
    let dtRaw := spm.getD 1 0 - spm.getD 0 0
    if dtRaw = 0 then .error .value
    else
      let q := pyRound (dtDown / dtRaw)
      if q < 1 then .error .value
      else
        let p := List.zipWith (fun i j => i ^ 2 + j ^ 2) (resamplePoly h q.toNat (iq.map (·.1))) (resamplePoly h q.toNat (iq.map (·.2)))
        .ok (linspace (spm.getD 0 0) (spm.getD (spm.length - 1) 0) p.length, p)

/-- Median of the powers in a region; `none` (NaN) if there are none. -/
def medianIn (spm pc : List ℚ) (g : ℚ × ℚ) : Option ℚ :=
  match ((spm.zip pc).filter fun x => g.1 ≤ x.1 ∧ x.1 ≤ g.2).map (·.2) with
  | [] => none
  | l => some (median l)

/-- `np.nanmax(pc[(spm >= a) & (spm <= b)])`. -/
def maxIn (spm pc : List ℚ) (a b : ℚ) : Py ℚ := pyMaxL (((spm.zip pc).filter fun x => a ≤ x.1 ∧ x.1 ≤ b).map (·.2))

/-- rss_ringoccs/calibration/power_normalization.py 271-279. -/
def pcMax (spm pc : List ℚ) (gaps : List (ℚ × ℚ)) : Py ℚ :=
  let first := gaps.getD 0 (0, 0)
  let last := gaps.getD (gaps.length - 1) (0, 0)
  if gaps.length = 2 ∨ gaps.length = 3 then
    if first.2 = last.1 then maxIn spm pc first.1 last.2 else maxIn spm pc first.2 last.1
  else if gaps.length = 1 then pyMaxL (((spm.zip pc).filter fun x => first.1 < x.1 ∧ x.1 ≤ first.2).map (·.2))
  else if gaps.length = 0 then .error .index
  else maxIn spm pc (gaps.getD 1 (0, 0)).2 (gaps.getD (gaps.length - 2) (0, 0)).1

/-- rss_ringoccs/calibration/power_normalization.py 297. -/
def badMedian : Option ℚ → Bool
  | none => false
  | some m => m < 1 / 2 ∨ 5 / 4 < m

/-- What `create_mask` sets: the mask, the regions, and the order of the fit. -/
structure Masked where
  mask : List Bool
  gaps : List (ℚ × ℚ)
  order : Nat
  deriving DecidableEq

/-- rss_ringoccs/calibration/power_normalization.py 289-300: the loop over a copy of the list, which removes from the list itself
(from the list that was passed). -/
def dropGaps (med : ℚ × ℚ → Option ℚ) (gaps : List (ℚ × ℚ)) : List (ℚ × ℚ) × List (Option ℚ) :=
  gaps.foldl (fun s g => if badMedian (med g) then (s.1.erase g, s.2) else (s.1, s.2 ++ [med g])) (gaps, [])

/-- rss_ringoccs/calibration/power_normalization.py 247-324.  A greatest power 0 is not modelled. -/
def createMask (spm : List ℚ) (gaps : List (ℚ × ℚ)) (pc : List ℚ) (order : Nat) : Py Masked := do
  let top ← pcMax spm pc gaps
  if top = 0 then .error .zeroDivision
  else
    let norm := pc.map (· / top)
    let r := dropGaps (medianIn spm norm) gaps
    let mask := (spm.zip norm).map fun x => (r.1.zip r.2).any fun y =>
      decide (y.1.1 ≤ x.1 ∧ x.1 ≤ y.1.2) && match y.2 with
        | none => false
        | some m => decide (m - 1 / 10 < x.2 ∧ x.2 < m + 1 / 10)
    pure ⟨mask, r.1, if r.1.length ≤ 5 then 1 else order⟩

end Verif.Cal
