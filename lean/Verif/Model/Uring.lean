import Verif.Model.Voyager
import Verif.Model.Rsr
import Verif.Model.Csv
import Mathlib.Analysis.SpecialFunctions.Trigonometric.Basic

/-!
# The pipeline for the rings of Uranus

Simplifications: exact arithmetic; the list with one mask that indexes the arrays selects like the mask itself (as NumPy did when the
scripts were written); the filters of `decimate`, fits and convolutions are not modelled, only which samples they belong to.
-/
namespace Verif.Uring
open Verif.Rsr

/-- pipeline/pipeline_uranus/pipeline_params.py 29. -/
def ringNames : List String := ["6", "5", "4", "A", "B", "N", "G", "D", "E"]

/-- pipeline/pipeline_uranus/geocal.py 42, scatter.py 43. -/
def frames : List String := ["6", "5", "4", "ALPHA", "BETA", "ETA", "GAMMA", "DELTA", "LAMBDA", "EPSILON"]

/-- pipeline/pipeline_uranus/geocal.py 97-110, scatter.py 98-111: rings with the frame that their geometry is computed in. -/
def ringFrames : List (String × String) := ringNames.zip (frames.map ("URING_" ++ ·))

/-- pipeline/pipeline_uranus/pipeline_params.py 36-39: the times of the rings on egress, without the lambda ring. -/
def egressSpm : List (String × ℚ) :=
  [("6", 4703.43400002), ("5", 4746.70200014), ("4", 4795.93099976), ("A", 5055.85999966), ("B", 5175.7670002), ("N", 5357.72299957),
   ("G", 5412.36200047), ("D", 5493.19499969), ("E", 5859.81299973)]

/-- pipeline/pipeline_uranus/geocal.py 117-121 (half width 100), scatter.py 118-122 (half width 500): the times near a ring. -/
def window (t : List ℚ) (c h : ℚ) : List ℚ := t.filter fun x => decide (c - h ≤ x) && decide (x ≤ c + h)

/-- pipeline/pipeline_uranus/geocal.py 133-143, scatter.py 134-144: the time given to the decimated sample `k`, that is sample `10 k` of
the window; `alpha` is the test for the alpha ring on egress. -/
def newTime (alpha : Bool) (w : List ℚ) (k : Nat) : ℚ :=
  if alpha then w.getD 0 0 + 1 + k * 10 / 50000 else w.getD 0 0 + k * 10 / 50000

/-- pipeline/pipeline_uranus/geocal.py 86 and 88: the fitted offsets of the raw samples. -/
def offsets (p1 p2 : ℚ → ℚ) (b : ℚ) (t : List ℚ) : List ℚ := (t.filter (· < b)).map p1 ++ (t.filter (b ≤ ·)).map p2

/-- pipeline/pipeline_uranus/dlp.py 272-279: the radii that are written for a ring at `km` with width `wd`; `fmax` is the greatest Fresnel
scale of the GEO file. -/
def dlpRange (km wd fmax dr : ℚ) : ℤ × ℤ :=
  let pad := fmax ^ 2 / dr
  if 25 < wd then (pyRound (km - wd - pad - 1), pyRound (km + wd + pad + 1))
  else (pyRound (km - 26 - pad), pyRound (km + 26 + pad))

/-- pipeline/pipeline_uranus/reconstruction.py 83-88: the radii that are reconstructed. -/
def recRange (km wd : ℚ) : ℚ × ℚ := if 25 < wd then (km - wd, km + wd) else (km - 25, km + 25)

/-- pipeline/pipeline_uranus/dlp.py 291-293: the columns of the DLP file; `true` for an angle in radians (83, 232, 236-237). -/
def written : List (Col × Bool) :=
  [(.rho, false), (.rhoPole, false), (.rhoTiming, false), (.phiRl, true), (.phi, true), (.pNorm, false), (.rawTau, false), (.phase, true),
   (.rawTauThr, false), (.tOet, false), (.tRet, false), (.tSet, false), (.B, true), (.rhoDot, false), (.F, false), (.D, false), (.fSky, false)]

/-- pipeline/pipeline_uranus/reconstruction.py 23-41: the column numbers that the script's own reader uses. -/
def ownReader : List (Col × Nat) :=
  [(.rho, 0), (.tOet, 9), (.pNorm, 5), (.phase, 7), (.B, 12), (.D, 15), (.F, 14), (.fSky, 16), (.phi, 4), (.tRet, 10), (.tSet, 11),
   (.phiRl, 3), (.rhoDot, 13), (.rhoPole, 1), (.rhoTiming, 2), (.tau, 6), (.rawTauThr, 8)]

/-- One correction of the unwrapped phase. -/
structure Jump where
  start : ℝ
  stop : ℝ
  limit : ℝ
  incr : ℤ

open Classical in
/-- pipeline/pipeline_uranus/dlp.py 33-37 for one correction and one sample. -/
noncomputable def jump (t : ℝ) (p : ℝ) (j : Jump) : ℝ :=
  if 0 < j.incr then (if j.start ≤ t ∧ t < j.stop ∧ p < j.limit then p + j.incr * 2 * Real.pi else p)
  else if j.start ≤ t ∧ t < j.stop ∧ j.limit < p then p + j.incr * 2 * Real.pi else p

/-- pipeline/pipeline_uranus/dlp.py 83: `(x + pi) % (2 pi) - pi`. -/
noncomputable def rewrap (x : ℝ) : ℝ := (x + Real.pi) - 2 * Real.pi * ⌊(x + Real.pi) / (2 * Real.pi)⌋ - Real.pi

/-- pipeline/pipeline_uranus/dlp.py 19-124: `correct_phase`, with `unwrap` for `np.unwrap` and `fit` for lines 38-79. -/
noncomputable def correctPhase (unwrap : List ℝ → List ℝ) (fit : List ℝ → List ℝ) (jumps : List Jump) (spm phase : List ℝ) : List ℝ :=
  let p := unwrap (phase.map (· + Real.pi))
  let p := List.zipWith (fun t x => jumps.foldl (jump t) x) spm p
  List.zipWith (fun x f => rewrap (x - f)) p (fit p)

end Verif.Uring
