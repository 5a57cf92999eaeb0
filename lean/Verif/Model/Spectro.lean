import Verif.Model.Rsr

/-!
# Spectrogram

Simplifications: exact arithmetic of rational numbers; a two-dimensional array is the list of its columns (one for each time) in
`stackSpec`, and the list of its rows (one for each frequency) in `sortSpec`; the transforms themselves (`scipy.signal.spectrogram`)
are not modelled, and their results are arguments.
-/
namespace Verif.Spc
open Verif.Rsr

/-- rss_ringoccs/scatter/spectrogram.py 101; an empty array is an `IndexError`, and the times `[t, t]` divide by 0, which NumPy answers
with infinity (here an error). -/
def sampleRate (time : List ℚ) : Py ℚ :=
  if time = [] then .error .index
  else
    let span := time.getD (time.length - 1) 0 - time.getD 0 0
    if span = 0 then .error .zeroDivision else .ok (time.length / span)

/-- rss_ringoccs/scatter/spectrogram.py 103-110: the pair `numpts, nsegs`. -/
def hiresOptions (len : Nat) (numpts nsegs : Option Nat) : Nat × Nat :=
  let nperseg := 1000
  let np := match numpts with
    | none => nperseg
    | some p => if len / 10 < p then nperseg else p
  let ns := match nsegs with
    | none => len / nperseg
    | some s => if len < s * np then len / nperseg else s
  (np, ns)

/-- rss_ringoccs/scatter/spectrogram.py 20-46: the number of segments that are finished before an error, and the error, if any.  The
name `pbar` of line 44 is not defined. -/
def contStft (nsegs : Nat) : Py Nat :=
  if nsegs = 0 then .ok 0 else .error .name

/-- rss_ringoccs/scatter/spectrogram.py 119-122: frequencies and the absolute values of their rows, from the result of scipy. -/
def sortSpec (f : List ℚ) (rows : List (List ℚ)) : List ℚ × List (List ℚ) :=
  let s := (f.zip rows).mergeSort fun a b => decide (a.1 ≤ b.1)
  (s.map fun p => -p.1, s.map fun p => p.2.map fun x => |x| ^ 2)

/-- rss_ringoccs/scatter/spectrogram.py 64-66: the sum of the columns `i`, …, `i + n - 1` of an array with `rows` rows. -/
def stackColumn (rows : Nat) (cols : List (List ℚ)) (n i : Nat) : Py (List ℚ) :=
  if cols.length < i + n then .error .index
  else .ok ((List.range rows).map fun r => ((List.range n).map fun j => (cols.getD (i + j) []).getD r 0).sum)

/-- `range(0, stop, n)` for positive `n`. -/
def steps (stop n : Nat) : List Nat := (List.range ((stop + n - 1) / n)).map fun b => b * n

/-- rss_ringoccs/scatter/spectrogram.py 48-71: times and columns of the result. -/
def stackSpec (rows : Nat) (time : List ℚ) (cols : List (List ℚ)) (n : Nat) : Py (List ℚ × List (List ℚ)) :=
  if n = 0 then .error .value
  else do
    let s ← (steps (time.length - n) n).mapM fun i => stackColumn rows cols n i
    pure ((steps (time.length - n) n).map fun i => time.getD (i + n / 2) 0, s)

/-- rss_ringoccs/scatter/spectrogram.py 170-176: the lines of the header, as name and value. -/
def header (f t : List ℚ) : List (String × ℚ) :=
  [("f0 (Hz)", f.getD 0 0), ("n_freq", f.length), ("Delta t (sec)", (f.getD (f.length - 1) 0 - f.getD 0 0) / f.length),
    ("t0 (SPM)", t.getD 0 0), ("n_time", t.length), ("Delta f (Hz)", (t.getD (t.length - 1) 0 - t.getD 0 0) / t.length)]

end Verif.Spc
