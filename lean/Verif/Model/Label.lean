import Verif.Model.Pds
import Verif.Model.Binary

/-!
# Values in labels

Simplifications: numbers are rational; `rnd` is the rounding of each operation on floats in `get_ISOD_str`, the other functions are modelled
without rounding.
-/
namespace Verif.Pds
open Verif.Rsr Verif.Out

/-- `x % 1` of a float: `fmod`, and one more if it is negative. -/
def modOne (rnd : ℚ → ℚ) (x : ℚ) : ℚ :=
  let f := x - pyInt x
  if f < 0 then rnd (f + 1) else f

/-- rss_ringoccs/tools/pds3_write_series_v2.py 413-419: hours, minutes and seconds as integers. -/
def clock (rnd : ℚ → ℚ) (spm : ℚ) : ℤ × ℤ × ℤ :=
  let hrs := rnd (rnd (spm / 60) / 60)
  let mins := rnd (modOne rnd hrs * 60)
  let secs := rnd (modOne rnd mins * 60)
  (pyInt hrs, pyInt mins, pyInt secs)

/-- `str(i).zfill(2)`: zeros follow a sign. -/
def zfill2 (i : ℤ) : List Char :=
  if i < 0 then '-' :: List.replicate (1 - (decimal i.natAbs).length) '0' ++ decimal i.natAbs
  else List.replicate (2 - (decimal i.natAbs).length) '0' ++ decimal i.natAbs

/-- rss_ringoccs/tools/pds3_write_series_v2.py 410-422: `get_ISOD_str`. -/
def isod (rnd : ℚ → ℚ) (spm : ℚ) (year doy : List Char) : List Char :=
  let c := clock rnd spm
  year ++ '-' :: doy ++ 'T' :: zfill2 c.1 ++ ':' :: zfill2 c.2.1 ++ ':' :: zfill2 c.2.2

/-- rss_ringoccs/tools/pds3_dlp_series.py 158-159, 184-185 (and the same in the other files): `START_TIME` and `STOP_TIME` are those of the first
and the last row; an empty array is an `IndexError`. -/
def startStop (rnd : ℚ → ℚ) (year doy : List Char) (t : List ℚ) : Py (List Char × List Char) :=
  match t with
  | [] => .error .index
  | x :: xs => .ok (isod rnd x year doy, isod rnd ((x :: xs).getLast (by simp)) year doy)

/-- rss_ringoccs/tools/pds3_write_series_v2.py 424-435: `get_sampling_interval`; `dr` is not set if the first and the last interval differ. -/
def samplingInterval (l : List ℚ) : Py (List Char) :=
  if l.length < 2 then .error .index
  else
    let first := l.getD 1 0 - l.getD 0 0
    let last := l.getD (l.length - 1) 0 - l.getD (l.length - 2) 0
    if last - 1 / 1000 < first ∧ first < last + 1 / 1000 then .ok (fixed 4 first) else .error .unboundLocal

/-- rss_ringoccs/tools/pds3_write_series_v2.py 370-384: `get_ring_profile_direction`. -/
def profileDirection (r : List ℚ) : Py (String × Char) :=
  if r.length < 2 then .error .index
  else
    let first := r.getD 1 0 - r.getD 0 0
    let last := r.getD (r.length - 1) 0 - r.getD (r.length - 2) 0
    let d : Option (String × Char) := none
    let d := if first < 0 ∧ last < 0 then some ("\"INGRESS\"", 'I') else d
    let d := if 0 < first ∧ 0 < last then some ("\"EGRESS\"", 'E') else d
    let d := if (first < 0 ∧ 0 < last) ∨ (0 < first ∧ last < 0) then some ("\"BOTH\"", 'C') else d
    match d with
    | some x => .ok x
    | none => .error .unboundLocal

/-- rss_ringoccs/tools/pds3_dlp_series.py 214-217: `str(round(min(rho), 4))` and `str(round(max(rho), 4))`, as numbers; an empty array is a
`ValueError`. -/
def radiusRange (r : List ℚ) : Py (ℚ × ℚ) := do
  let a ← pyMin r
  let b ← pyMax r
  pure (pyRound (a * 10 ^ 4) / 10 ^ 4, pyRound (b * 10 ^ 4) / 10 ^ 4)

end Verif.Pds
