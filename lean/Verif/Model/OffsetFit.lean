import Verif.Model.Disconts
import Verif.Model.PolyOrder

/-!
# Fit of the frequency offset

Simplifications: as in `Verif.Model.Disconts` and `Verif.Model.PolyOrder`; an array may be indexed by a list of one mask, as in the
releases of NumPy before 1.23.
-/
namespace Verif.Cal
open Verif.Rsr Verif.Geo

/-- `l[a:b]`. -/
def pySlice (l : List ℚ) (a b : ℤ) : List ℚ := (l.take (slicePos l.length b).toNat).drop (slicePos l.length a).toNat

/-- rss_ringoccs/calibration/freq_offset_fit.py 531-533.  If the greatest difference is 0, NumPy divides by 0 and `np.polyfit` fails
with `LinAlgError`. -/
def scaledTimes (spm : List ℚ) : Py (List ℚ) :=
  if spm = [] then .error .index
  else do
    let mid := spm.getD (spm.length / 2) 0
    let top ← pyMaxL (spm.map fun t => t - mid)
    if top = 0 then .error .value else pure (spm.map fun t => (t - mid) / top)

/-- What `fit_freq_offset` returns and stores; `chi2 = none`: not finite. -/
structure OffsetFit where
  fit : List ℚ
  orders : List Nat
  chi2 : Option ℚ
  deriving DecidableEq

/-- rss_ringoccs/calibration/freq_offset_fit.py 548-549 and 592-593. -/
def pearson (fit f : List ℚ) : Option ℚ :=
  if fit.any (fun z => z = 0) then none else some (List.zipWith (fun z y => (z - y) ^ 2 / z) fit f).sum

/-- rss_ringoccs/calibration/freq_offset_fit.py 559-588: the turn of the loop for the segment `i`.  `ts` are the scaled times, `xs` and
`ys` times and offsets under the mask. -/
def segmentStep (pf : Nat → List ℚ → List ℚ → List ℚ) (ts xs ys : List ℚ) (ds : List ℤ) (st : List ℚ × List Nat) (i : Nat) :
    Py (List ℚ × List Nat) := do
  let sx := pySlice xs (ds.getD i 0 + 1) (ds.getD (i + 1) 0)
  let sy := pySlice ys (ds.getD i 0 + 1) (ds.getD (i + 1) 0)
  let order ← polyOrder pf sx sy 4
  let coef := pf order sx sy
  let lo := if i = 0 then ts.getD 0 0 else xs.getD (ds.getD i 0 - 1).toNat 0
  let hi := if i + 2 = ds.length then ts.getD (ts.length - 1) 0 else xs.getD (ds.getD (i + 1) 0 + 1).toNat 0
  pure (List.zipWith (fun t z => if lo ≤ t ∧ t ≤ hi then polyval coef t else z) ts st.1, st.2 ++ [order])

/-- rss_ringoccs/calibration/freq_offset_fit.py 498-596. -/
def fitOffset (pf : Nat → List ℚ → List ℚ → List ℚ) (year : Nat) (spm rho f : List ℚ) (mask : List Bool) : Py OffsetFit := do
  let ts ← scaledTimes spm
  let xs ← npMask mask ts
  let ys ← npMask mask f
  if year < 2011 then
    let order ← polyOrder pf xs ys 9
    let fit := ts.map (polyval (pf order xs ys))
    let under ← npMask mask fit
    pure ⟨fit, [order], pearson under ys⟩
  else
    let rs ← npMask mask rho
    let ds ← getDisconts xs rs ys (1 / 10)
    let st ← (List.range (ds.length - 1)).foldlM (segmentStep pf ts xs ys ds) (ts.map fun _ => 0, [])
    let under ← npMask mask st.1
    pure ⟨st.1, st.2, pearson under ys⟩

end Verif.Cal
