import Verif.Model.PowerNorm

/-!
# Which frequency offsets are fitted

Simplifications: exact arithmetic of rational numbers, no offset is NaN.
-/
namespace Verif.Cal
open Verif.Rsr Verif.Geo

/-- rss_ringoccs/calibration/freq_offset_fit.py 318-319 and 322-323: `j` is increased while `base + 2 * j < n` and the mask is
`False` at `base + j`. -/
def scan (mask : List Bool) (base n : Nat) : Nat → Nat → Nat
  | 0, j => j
  | fuel + 1, j => if base + 2 * j < n ∧ mask.getD (base + j) false = false then scan mask base n fuel (j + 1) else j

/-- rss_ringoccs/calibration/freq_offset_fit.py 297-333: one turn of the loop; `far d` is `d > stdev`. -/
def clipStep (f diff : List ℚ) (far : ℚ → Bool) (df : ℚ) (mask : List Bool) (i : Nat) : Py (List Bool) :=
  let n := f.length
  let x := f.getD i 0
  if x < -150 ∨ 150 < x then .ok (mask.set i false)
  else if far (diff.getD i 0) then .ok (mask.set i false)
  else if 1 < i ∧ i + 2 < n then
    if df < |x - f.getD (i - 1) 0| ∨ df < |x - f.getD (i + 1) 0| then .ok (mask.set i false)
    else
      let j := scan mask i n n 1
      let k := scan mask (i + j) n n 1
      if n ≤ i + j + k then .error .index
      else if df < |x - f.getD (i + j) 0| ∧ df < |f.getD (i + j) 0 - f.getD (i + j + k) 0| then .ok (mask.set (i + j) false)
      else .ok mask
  else .ok mask

/-- rss_ringoccs/calibration/freq_offset_fit.py 292-335. -/
def sigmaClip (f diff : List ℚ) (far : ℚ → Bool) (df : ℚ) : Py (List Bool) :=
  (List.range f.length).foldlM (clipStep f diff far df) (List.replicate f.length true)

/-- rss_ringoccs/calibration/freq_offset_fit.py 342-345. -/
def stepUp (m : List Bool) (i : Nat) : List Bool :=
  if m.getD i false ∧ ¬ m.getD (i - 2) false ∧ ¬ m.getD (i - 1) false ∧ ¬ m.getD (i + 1) false ∧ ¬ m.getD (i + 2) false then m.set i false
  else m

/-- rss_ringoccs/calibration/freq_offset_fit.py 349-354. -/
def stepDown (m : List Bool) (i : Nat) : List Bool :=
  if m.getD i false then
    let m' := stepUp m i
    if ¬ m'.getD (i - 1) false ∧ ¬ m'.getD (i + 1) false then m'.set i false else m'
  else m

/-- rss_ringoccs/calibration/freq_offset_fit.py 337-355. -/
def neighborCheck (m : List Bool) : List Bool :=
  let up := ((List.range m.length).filter fun i => 2 ≤ i ∧ i + 2 < m.length).foldl stepUp m
  ((List.range m.length).filter fun i => 3 ≤ i ∧ i + 2 < m.length).reverse.foldl stepDown up

/-- rss_ringoccs/calibration/freq_offset_fit.py 232-262 with the default `polyclip=False`; `df` as computed in lines 224-230.  The
threshold is the lesser of 15 and five times the root of `s`, and is compared by squares. -/
def offsetMask (f rho : List ℚ) (df : ℚ) : Py (List Bool) := do
  let med := median f
  let s := median (f.map fun x => (x - med) ^ 2)
  let diff := f.map fun x => |x - med|
  let clip ← sigmaClip f diff (fun d => decide (25 * s < d ^ 2 ∨ 225 < d ^ 2)) df
  let mask := neighborCheck clip
  if mask.count true < 5 then
    pure (neighborCheck ((f.zip rho).map fun p => !(decide (p.1 < -150 ∨ 150 < p.1) || decide (92000 < p.2 ∧ p.2 < 118000))))
  else pure mask

end Verif.Cal
