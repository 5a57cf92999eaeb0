import Verif.Model.Times
import Mathlib.Algebra.Field.Defs

/-!
# Arrays of the occultation geometry

Simplification: times and radii are rational numbers with exact arithmetic.  `Py`, `Exn`: `Verif.Model.Rsr`.
-/
namespace Verif.Geo
open Verif.Rsr

/-- `np.gradient(f, dt)` for at least two points. -/
def gradient {K : Type} [Field K] (f : List K) (dt : K) : List K :=
  (List.range f.length).map fun i =>
    if i = 0 then (f.getD 1 0 - f.getD 0 0) / dt
    else if i + 1 = f.length then (f.getD i 0 - f.getD (i - 1) 0) / dt
    else (f.getD (i + 1) 0 - f.getD (i - 1) 0) / (2 * dt)

/-- rss_ringoccs/occgeo/calc_occ_geometry.py 473-494: `rad` converts to radians. -/
def calcRipVelocity {K : Type} [Field K] (rad : K → K) (rho phi : List K) (dt : K) : Py (List K × List K) :=
  if rho.length < 2 ∨ phi.length < 2 then .error .value
  else .ok (gradient rho dt, List.zipWith (· * ·) rho (gradient (phi.map rad) dt))

/-- `np.sign`. -/
def sgn (x : ℚ) : Int := if x < 0 then -1 else if 0 < x then 1 else 0

/-- What `get_chord_ind` returns: `None`, a number, or the array of all places. -/
inductive ChordInd
  | none
  | at (k : Nat)
  | many (l : List Nat)
  deriving DecidableEq, Repr

/-- rss_ringoccs/occgeo/occgeo.py 608: where neighbouring velocities differ in sign. -/
def signChanges (v : List ℚ) : List Nat :=
  (List.range (v.length - 1)).filter fun i => sgn (v.getD (i + 1) 0) - sgn (v.getD i 0) ≠ 0

/-- rss_ringoccs/occgeo/occgeo.py 597-618. -/
def getChordInd (rhoDot : List ℚ) : ChordInd :=
  match signChanges rhoDot with
  | [] => .none
  | [i] => .at (i + 2)
  | l => .many l

/-- The profile directions. -/
inductive Dir
  | ingress | egress | both
  deriving DecidableEq, Repr

/-- The attributes of a `Geometry` object that matter here.  `cols` are all other arrays with one value per time. -/
structure Geom where
  rho : List ℚ
  rhoDot : List ℚ
  spm : List ℚ
  atmos : List ℚ
  cols : List (List ℚ)
  deriving DecidableEq

/-- `np.delete(l, np.arange(a, b))`: an index behind the end is an error. -/
def npDelete (a b : Nat) (l : List ℚ) : Py (List ℚ) :=
  if a < b ∧ l.length < b then .error .index else .ok (l.take a ++ l.drop (max a b))

/-- rss_ringoccs/occgeo/occgeo.py 554-558 and 590-594: the deletion in every attribute that is as long as `n`. -/
def deleteRows (n a b : Nat) (l : List ℚ) : Py (List ℚ) := if l.length = n then npDelete a b l else .ok l

/-- The deletion in all attributes. -/
def Geom.deleteRows (g : Geom) (n a b : Nat) : Py Geom := do
  let rho ← Geo.deleteRows n a b g.rho
  let rhoDot ← Geo.deleteRows n a b g.rhoDot
  let spm ← Geo.deleteRows n a b g.spm
  let atmos ← Geo.deleteRows n a b g.atmos
  let cols ← g.cols.mapM (Geo.deleteRows n a b)
  pure { rho := rho, rhoDot := rhoDot, spm := spm, atmos := atmos, cols := cols }

/-- The first index with `p`, as `np.argwhere(..)[0][0]` finds it. -/
def firstIndex (p : ℚ → Bool) (l : List ℚ) : Py Nat :=
  match l.findIdx? p with
  | some i => .ok i
  | none => .error .index

/-- rss_ringoccs/occgeo/occgeo.py 549-560. -/
def removeBeyondRings (g : Geom) : Py Geom := do
  let ind1 ← firstIndex (fun r => 170000 < r) g.rho
  g.deleteRows g.rho.length ind1 (g.rho.length + 1)

/-- The least element, `ValueError` for an empty list. -/
def pyMinL (l : List ℚ) : Py ℚ :=
  match l with
  | [] => .error .value
  | x :: xs => .ok (xs.foldl min x)

/-- The greatest element, `ValueError` for an empty list. -/
def pyMaxL (l : List ℚ) : Py ℚ :=
  match l with
  | [] => .error .value
  | x :: xs => .ok (xs.foldl max x)

/-- rss_ringoccs/occgeo/occgeo.py 562-594.  Line 575 uses a name before it has a value. -/
def removeAtmos (g : Geom) : Py Geom := do
  let lo ← pyMinL g.atmos
  let ind1 ← firstIndex (fun t => t = lo) g.spm
  let hi ← pyMaxL g.atmos
  let ind2 ← firstIndex (fun t => t = hi) g.spm
  if ind2 < ind1 then .error .unboundLocal
  else g.deleteRows g.spm.length ind1 (ind2 + 1)

/-- `if dr < 0 … if dr > 0 …` of lines 507-511 and 514-518; the subtraction needs two values. -/
def dirOf (r : List ℚ) : Py (Option Dir) :=
  match r with
  | a :: b :: _ => .ok (if b - a < 0 then some .ingress else if 0 < b - a then some .egress else none)
  | _ => .error .index

/-- rss_ringoccs/occgeo/occgeo.py 520-547: the part that the atmosphere blocks. -/
def verifyAtmos (g : Geom) (k : Nat) : Py (Dir × Geom) := do
  let ing := g.spm.take k
  let egr := g.spm.drop k
  if (ing.filter (· ∈ g.atmos)).length = ing.length then
    let g' ← removeAtmos g
    pure (.egress, g')
  else if (egr.filter (· ∈ g.atmos)).length = egr.length then
    let g' ← removeAtmos g
    pure (.ingress, g')
  else pure (.both, g)

/-- rss_ringoccs/occgeo/occgeo.py 490-547.  An index `None` or an array makes the comparison of line 502 one of several truth
values, which is an error (for at least two radii). -/
def verifyChord (g : Geom) : Py (Dir × Geom) :=
  match getChordInd g.rhoDot with
  | .none => .error .value
  | .many _ => .error .value
  | .at k =>
    match g.rho[k]? with
    | none => .error .index
    | some r =>
      if 170000 < r then
        if (g.rho.drop k).all (fun x => 170000 < x) then do
          let g' ← removeBeyondRings g
          match ← dirOf (g.rho.take k) with
          | some d => pure (d, g')
          | none => verifyAtmos g' k
        else if (g.rho.take k).all (fun x => 170000 < x) then do
          let g' ← removeBeyondRings g
          match ← dirOf (g.rho.drop k) with
          | some d => pure (d, g')
          | none => verifyAtmos g' k
        else verifyAtmos g k
      else verifyAtmos g k

/-- rss_ringoccs/occgeo/occgeo.py 469-488. -/
def getProfileDir (g : Geom) : Py (Dir × Geom) :=
  if g.rho.length < 2 then .error .index
  else
    let s := g.rho.getD 1 0 - g.rho.getD 0 0
    let e := g.rho.getD (g.rho.length - 1) 0 - g.rho.getD (g.rho.length - 2) 0
    if s < 0 ∧ e < 0 then .ok (.ingress, g)
    else if 0 < s ∧ 0 < e then .ok (.egress, g)
    else verifyChord g

/-- Four arrays that belong together. -/
structure Cut where
  ret : List ℚ
  oet : List ℚ
  phi : List ℚ
  rho : List ℚ
  deriving DecidableEq

/-- `l[mask]` for arrays of one length. -/
def maskList {α : Type} (mask : List Bool) (l : List α) : List α :=
  ((mask.zip l).filter (·.1)).map (·.2)

/-- `l[mask]`: an error when the lengths differ. -/
def npMask (mask : List Bool) (l : List ℚ) : Py (List ℚ) :=
  if mask.length = l.length then .ok (maskList mask l) else .error .index

/-- rss_ringoccs/occgeo/calc_occ_geometry.py 970-1010. -/
def removeBlocked (oet atmos ret phi rho : List ℚ) : Py Cut := do
  let mask := oet.map fun t => !decide (t ∈ atmos)
  let r ← npMask mask ret
  let o ← npMask mask oet
  let p ← npMask mask phi
  let h ← npMask mask rho
  pure { ret := r, oet := o, phi := p, rho := h }

/-- rss_ringoccs/occgeo/calc_occ_geometry.py 900-968 for the two strings that are passed; `wantEgress` is the direction. -/
def splitChordArr (ret oet atmos phi rho : List ℚ) (ind : Nat) (wantEgress : Bool) : Py Cut :=
  if rho.length < 2 then .error .index
  else
    let dr1 := rho.getD 1 0 - rho.getD 0 0
    let dr2 := rho.getD (rho.length - 1) 0 - rho.getD (rho.length - 2) 0
    if (dr1 < 0 ∧ dr2 < 0) ∨ (0 < dr1 ∧ 0 < dr2) then .error .value
    else
      let part : List ℚ → List ℚ := fun l => if (dr1 < 0) = (wantEgress = true) then l.drop ind else l.take ind
      removeBlocked (part oet) atmos (part ret) (part phi) (part rho)

end Verif.Geo
