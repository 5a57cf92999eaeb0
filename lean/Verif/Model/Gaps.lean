import Verif.Model.Geo
import Mathlib.Data.List.Sort

/-!
# Free-space regions

Simplifications: rational numbers with exact arithmetic; `np.cos(np.radians(x))` is a parameter `cosd`; no radius or time is NaN.
`get_start_jd` is the parameter `startJd`; the contents of the table are those of the file delivered with the code.
-/
namespace Verif.Geo
open Verif.Rsr

/-- `np.argwhere(radius_diff==min(radius_diff))` of rss_ringoccs/occgeo/calc_occ_geometry.py 747-748 and 774-775. -/
def nearest (rho : List ℚ) (guess : ℚ) : Py (List Nat) := do
  let m ← pyMinL (rho.map fun r => |r - guess|)
  pure ((List.range rho.length).filter fun i => |rho.getD i 0 - guess| = m)

/-- `np.nanmedian` of a list that is not empty. -/
def median (l : List ℚ) : ℚ :=
  let s := l.insertionSort (· ≤ ·)
  if s.length % 2 = 1 then s.getD (s.length / 2) 0 else (s.getD (s.length / 2 - 1) 0 + s.getD (s.length / 2) 0) / 2

/-- `np.nanmedian(l[ind])`. -/
def medianAt (l : List ℚ) (ind : List Nat) : Py ℚ :=
  if ind.all (· < l.length) then .ok (median (ind.map fun i => l.getD i 0)) else .error .index

/-- Semimajor axis, eccentricity, longitude of periapse and its rate. -/
structure Orbit where
  a : ℚ
  e : ℚ
  w0 : ℚ
  wdot : ℚ
  deriving DecidableEq

/-- rss_ringoccs/occgeo/calc_occ_geometry.py 746-763, and the same in the loop, 773-789. -/
def radiusStep (cosd : ℚ → ℚ) (t rho phi : List ℚ) (o : Orbit) (guess : ℚ) : Py ℚ := do
  let ind ← nearest rho guess
  let time ← medianAt t ind
  let longitude ← medianAt phi ind
  pure (o.a * (1 - o.e ^ 2) / (1 + o.e * cosd (longitude - o.w0 - o.wdot * time)))

/-- rss_ringoccs/occgeo/calc_occ_geometry.py 766-795; the first argument is the number of iterations that may follow. -/
def radLoop (cosd : ℚ → ℚ) (t rho phi : List ℚ) (o : Orbit) (tol : ℚ) : Nat → ℚ → ℚ → Py ℚ
  | 0, _, new => .ok new
  | n + 1, old, new =>
    if tol < |new - old| then do
      let new' ← radiusStep cosd t rho phi o new
      radLoop cosd t rho phi o tol n new new'
    else .ok new

/-- rss_ringoccs/occgeo/calc_occ_geometry.py 707-795. -/
def radConverge (cosd : ℚ → ℚ) (t rho phi : List ℚ) (o : Orbit) (niter : Nat) (tol : ℚ) : Py ℚ := do
  let guess := o.a * (1 + o.e)
  let new ← radiusStep cosd t rho phi o guess
  radLoop cosd t rho phi o tol niter guess new

/-- tables/gap_orbital_elements.txt: semimajor axis, semimajor axis times eccentricity, longitude of periapse, rate. -/
def gapTable : List (ℚ × ℚ × ℚ × ℚ) := [
  (77747.89, 3.110, 96.900, 22.57346),
  (77867.13, 17.39, 270.54, 22.57503),
  (77890.21, 27.20, 270.70, 22.57562),
  (77926.01, 4.890, 280.02, 22.57696),
  (87342.77, 0, 0, 0),
  (87480.29, 18.93, 55.60, 14.69572),
  (87539.36, 58.02, 57.20, 14.69314),
  (87610.12, 1.11, 228.54, 14.69150),
  (117670.0, 0, 0, 0),
  (117805.55, 27.81, 137.53, 5.02872),
  (117823.65, 28.03, 141.77, 5.02587),
  (117907.04, 7.63, 153.21, 5.00570),
  (117916.77, 7.40, 153.83, 5.00735),
  (117930.90, 2.20, 248.91, 5.03383),
  (118188.42, 8.27, 347.32, 4.97362),
  (118234.30, 1.49, 172.81, 4.96229),
  (118263.25, 1.76, 264.77, 4.95659),
  (118283.51, 0.28, 113.47, 4.94653),
  (118589.92, 7.60, 236.73, 4.90922),
  (118628.40, 0.11, 73.68, 4.90829),
  (118929.63, 3.26, 333.51, 4.85753),
  (118966.70, 0.08, 114.89, 4.80910),
  (119844.78, 3.25, 310.11, 4.72673),
  (120036.53, 1.19, 236.12, 4.71250)]

/-- The orbit of a row of the table, lines 685-687. -/
def rowOrbit (r : ℚ × ℚ × ℚ × ℚ) : Orbit := ⟨r.1, r.2.1 / r.1, r.2.2.1, r.2.2.2⟩

/-- rss_ringoccs/occgeo/calc_occ_geometry.py 676-702: the loop over the pairs of rows. -/
def gapLoop (radius : Orbit → Py ℚ) (rho1 rho2 : ℚ) : List (ℚ × ℚ × ℚ × ℚ) → Py (List (ℚ × ℚ))
  | r1 :: r2 :: rest => do
    let lo ← radius (rowOrbit r1)
    let hi ← radius (rowOrbit r2)
    let more ← gapLoop radius rho1 rho2 rest
    pure (if rho1 < lo ∧ hi < rho2 then (lo, hi) :: more else more)
  | _ => .ok []

/-- rss_ringoccs/occgeo/calc_occ_geometry.py 630-705 with the default keywords. -/
def findGaps (cosd : ℚ → ℚ) (startJd : ℚ) (ret rho phi : List ℚ) : Py (List (ℚ × ℚ)) := do
  let time := ret.map fun t => startJd - 2454467 + t / 86400
  let rho1 ← pyMinL rho
  let rho2 ← pyMaxL rho
  gapLoop (fun o => radConverge cosd time rho phi o 100 (1 / 1000)) rho1 rho2 gapTable

/-- rss_ringoccs/occgeo/calc_occ_geometry.py 1027-1051. -/
def getFreespaceKm (cosd : ℚ → ℚ) (startJd : ℚ) (ret rho phi : List ℚ) : Py (List (ℚ × ℚ)) := do
  let lo ← pyMinL rho
  let hi ← pyMaxL rho
  let fsp (a b : ℚ) : List (ℚ × ℚ) := if a < lo ∨ hi < b then [] else [(a, b)]
  let fsp0 : List (ℚ × ℚ) := if lo < 72000 ∧ 72000 < hi then [(lo, 72000)] else []
  let gaps ← findGaps cosd startJd ret rho phi
  pure (fsp0 ++ gaps ++ fsp 133500 133650 ++ fsp 137000 143000 ++ fsp 143000 170000)

/-- `scipy.interpolate.interp1d(x, y, fill_value='extrapolate')` at `v`, for at least two different `x`: sorts by `x`, looks for
the first element that is not less than `v` (but not the very first), and uses the line through it and the one before. -/
def interp1d (x y : List ℚ) (v : ℚ) : ℚ :=
  let s := (x.zip y).insertionSort (fun p q => p.1 ≤ q.1)
  let i := min (max (s.countP fun p => p.1 < v) 1) (s.length - 1)
  let p := s.getD (i - 1) (0, 0)
  let q := s.getD i (0, 0)
  (q.2 - p.2) / (q.1 - p.1) * (v - p.1) + p.2

/-- `[[x[1],x[0]] for x in l][::-1]`. -/
def reverseGaps (l : List (ℚ × ℚ)) : List (ℚ × ℚ) := (l.map fun x => (x.2, x.1)).reverse

/-- What `get_freespace` returns: the radii of one or two parts, and the times. -/
structure Freespace where
  km : List (ℚ × ℚ)
  kmEgress : List (ℚ × ℚ)
  spm : List (ℚ × ℚ)
  deriving DecidableEq

/-- rss_ringoccs/occgeo/calc_occ_geometry.py 797-898.  A single row that is left is an error in line 889 (or already in
`interp1d`).  An array of split indices is not modelled; 0 counts as none. -/
def getFreespace (cosd : ℚ → ℚ) (startJd : ℚ) (ret rho phi oet atmos : List ℚ) (split : Option Nat) : Py Freespace :=
  match split with
  | some (k + 1) => do
    let ing ← splitChordArr ret oet atmos phi rho (k + 1) false
    let kmI ← getFreespaceKm cosd startJd ing.ret ing.rho ing.phi
    let spmI := reverseGaps (kmI.map fun g => (interp1d ing.rho ing.oet g.1, interp1d ing.rho ing.oet g.2))
    let egr ← splitChordArr ret oet atmos phi rho (k + 1) true
    let kmE ← getFreespaceKm cosd startJd egr.ret egr.rho egr.phi
    let spmE := kmE.map fun g => (interp1d egr.rho egr.oet g.1, interp1d egr.rho egr.oet g.2)
    let spm := match spmE, spmI with
      | e :: _, i :: _ => if e.1 < i.1 then spmE ++ spmI else spmI ++ spmE
      | _, _ => spmI ++ spmE
    pure ⟨kmI, kmE, spm⟩
  | _ => do
    let c ← removeBlocked oet atmos ret phi rho
    if c.rho.length = 0 then .error .value
    else do
      let km ← getFreespaceKm cosd startJd c.ret c.rho c.phi
      let spm := km.map fun g => (interp1d c.rho c.oet g.1, interp1d c.rho c.oet g.2)
      if c.rho.length < 2 then .error .index
      else pure ⟨km, [], if c.rho.getD 1 0 - c.rho.getD 0 0 < 0 then reverseGaps spm else spm⟩

/-- rss_ringoccs/occgeo/occgeo.py 413-420 and 447-451: direction, index of the split, free-space regions of the arrays as they
were before `get_profile_dir` removed rows.  An array of indices has no truth value. -/
def initFreespace (cosd : ℚ → ℚ) (startJd : ℚ) (g : Geom) (ret phi : List ℚ) : Py Freespace := do
  let r ← getProfileDir g
  if r.1 = .both then
    match getChordInd r.2.rhoDot with
    | .none => getFreespace cosd startJd ret g.rho phi g.spm r.2.atmos none
    | .at k => getFreespace cosd startJd ret g.rho phi g.spm r.2.atmos (some k)
    | .many _ => .error .value
  else getFreespace cosd startJd ret g.rho phi g.spm r.2.atmos none

end Verif.Geo
