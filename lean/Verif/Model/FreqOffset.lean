import Verif.Model.Rsr
import Mathlib.Analysis.SpecialFunctions.Complex.Circle
import Mathlib.Algebra.Order.Floor.Ring

/-!
# Frequency of the signal

Simplifications: real and complex numbers with exact arithmetic, in which `np.arange` of line 121 always has 401 elements.
-/
namespace Verif.Cal
open Verif.Rsr

/-- `np.argmax` of a list that is not empty: the first index of the greatest element. -/
noncomputable def argmaxR (l : List ℝ) : Nat :=
  open Classical in (List.range l.length).foldl (fun b i => if l.getD b 0 < l.getD i 0 then i else b) 0

/-- rss_ringoccs/calibration/calc_freq_offset.py 103-104. -/
noncomputable def hann (n i : Nat) : ℝ := 0.5 * (1 - Real.cos (2 * Real.pi * (i : ℝ) / ((n : ℝ) - 1)))

/-- `np.fft.fftfreq(n, d)[k]`. -/
noncomputable def fftfreq (n : Nat) (d : ℝ) (k : Nat) : ℝ :=
  if k < (n + 1) / 2 then (k : ℝ) / (n * d) else ((k : ℝ) - n) / (n * d)

/-- `np.sum(IQ*np.exp(-2j*np.pi*phase))`, the phases in cycles. -/
noncomputable def spectrum (iq : List ℂ) (phase : List ℝ) : ℂ :=
  (List.zipWith (fun z (p : ℝ) => z * Complex.exp (-2 * Complex.I * Real.pi * (p : ℂ))) iq phase).sum

/-- rss_ringoccs/calibration/calc_freq_offset.py 114 and 127. -/
noncomputable def powerOf (n : Nat) (z : ℂ) : ℝ := ‖z‖ ^ 2 / (n : ℝ) ^ 2

/-- rss_ringoccs/calibration/calc_freq_offset.py 102-117: weighted samples, and the frequency with the greatest power of the
discrete transform (`np.fft.fft` from its definition). -/
noncomputable def weighted (iq : List ℂ) : List ℂ := (List.range iq.length).map fun i : Nat => iq.getD i 0 * hann iq.length i

/-- See `weighted`. -/
noncomputable def coarsePeak (dt : ℝ) (iq : List ℂ) : ℝ :=
  let n := iq.length
  fftfreq n dt (argmaxR ((List.range n).map fun k : Nat =>
    powerOf n (spectrum (weighted iq) ((List.range n).map fun m : Nat => (m : ℝ) * (k : ℝ) / n))))

/-- rss_ringoccs/calibration/calc_freq_offset.py 92-133 for at least one sample. -/
noncomputable def findPeak (dt : ℝ) (time : List ℝ) (iq : List ℂ) : ℝ :=
  let f0 := coarsePeak dt iq
  let freq := (List.range 401).map fun j : Nat => f0 - 0.2 + 0.001 * (j : ℝ)
  freq.getD (argmaxR (freq.map fun f => powerOf iq.length (spectrum (weighted iq) (time.map fun t => t * f)))) 0

/-- rss_ringoccs/calibration/calc_freq_offset.py 63-90, with the half width 2 of line 38: the middles of the windows, and the
frequencies. -/
noncomputable def findOffsets (spm : List ℝ) (iq : List ℂ) (spmMin spmMax : ℝ) : Py (List ℝ × List ℝ) :=
  open Classical in
  if spm.length < 2 then .error .index
  else
    let dt := spm.getD 1 0 - spm.getD 0 0
    let mids := (List.range ⌈(spmMax + 10 - spmMin) / 10⌉.toNat).map fun i : Nat => spmMin + 10 * (i : ℝ)
    let window (mid : ℝ) := (spm.zip iq).filter fun p => decide (mid - 2 ≤ p.1 ∧ p.1 < mid + 2)
    let used := mids.filter fun mid => decide (2 < (window mid).length)
    .ok (used, used.map fun mid => findPeak dt ((window mid).map (·.1)) ((window mid).map (·.2)))

end Verif.Cal
