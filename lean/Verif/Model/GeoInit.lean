import Verif.Model.Geo

/-!
# Construction of a `Geometry` object: kernel pool and rows

Simplifications: of SPICE's kernel pool only the three radii of the planet are modelled; `furnsh` of the kernels sets them to
the values in the kernels.  What SPICE computes from positions is a parameter.
-/
namespace Verif.Geo
open Verif.Rsr

/-- The variable `BODYnnn_RADII` of the kernel pool. -/
abbrev Radii := ℚ × ℚ × ℚ

/-- `[radius + height_above for radius in original_radii]`. -/
def Radii.add (r : Radii) (h : ℚ) : Radii := (r.1 + h, r.2.1 + h, r.2.2 + h)

/-- rss_ringoccs/occgeo/calc_occ_geometry.py 411. -/
def flatRadii : Radii := (10 ^ 6, 10 ^ 6, 1 / 10 ^ 5)

/-- rss_ringoccs/occgeo/calc_occ_geometry.py 363-471.  `load` are the radii in the kernels if the keyword is given, `sinc` the
intercept with an ellipsoid of given radii; `none` is SPICE's exception when there is none.  The pool afterwards, and the
result. -/
def calcRhoVec {β : Type} (load : Option Radii) (sinc : Radii → ℚ → Option β) (ets : List ℚ) (pool : Radii) :
    Radii × Option (List β) :=
  let radii := load.getD pool
  match ets.mapM (sinc flatRadii) with
  | some l => (radii, some l)
  | none => (flatRadii, none)

/-- rss_ringoccs/occgeo/calc_occ_geometry.py 1055-1109: `occult` says whether an ellipsoid of given radii hides the spacecraft.
The pool afterwards, and the result. -/
def getPlanetOccTimes (load : Option Radii) (occult : Radii → ℚ → Bool) (height : ℚ) (ets : List ℚ) (pool : Radii) :
    Radii × List ℚ :=
  let new := (load.getD pool).add height
  (new, ets.filter (occult new))

/-- What the constructor computes with the radii. -/
structure PoolRun (β : Type) where
  rho : List β
  ionos : List ℚ
  atmos : List ℚ
  pool : Radii

/-- rss_ringoccs/occgeo/occgeo.py 135-440 as far as it uses the radii: lines 272-273, 299-302, 365-366 and 370-371.  `ul` is the
intercept of the uplink, used from 2011 on.  `none`: SPICE's exception. -/
def geometryRadii {β : Type} (year : Int) (load : Option Radii) (sinc ul : Radii → ℚ → Option β) (occult : Radii → ℚ → Bool)
    (oet set : List ℚ) (pool : Radii) : Option (PoolRun β) :=
  match calcRhoVec load sinc oet pool with
  | (_, none) => none
  | (p1, some rho) =>
    match (if 2011 ≤ year then calcRhoVec none ul set p1 else (p1, some [])) with
    | (_, none) => none
    | (p2, some _) =>
      let ionos := getPlanetOccTimes none occult 5000 oet p2
      let atmos := getPlanetOccTimes none occult 500 oet ionos.1
      some ⟨rho, ionos.2, atmos.2, atmos.1⟩

/-- rss_ringoccs/occgeo/calc_occ_geometry.py 201-255: `dist` is the distance of the centre from the line through a position, in
the direction at a time. -/
def calcImpact {V : Type} (dist : V → ℚ → ℚ) (R : List V) (ets : List ℚ) : Py (List ℚ) :=
  if R.length < ets.length then .error .index else .ok (List.zipWith dist R ets)

/-- rss_ringoccs/occgeo/occgeo.py 234-236. -/
def interceptMask (rz1 rz2 : List ℚ) : List Bool :=
  List.zipWith (fun a b => !(decide (0 < a ∧ 0 < b) || decide (a < 0 ∧ b < 0))) rz1 rz2

/-- rss_ringoccs/occgeo/occgeo.py 227-269 and 354-355: times, impact radii, and the velocities of lines 349-350 from the radii
`rho` of the times that are left.  `R` are the positions of the spacecraft, `rz2` the third coordinate of Earth. -/
def geometryRows {V : Type} (year : Int) (z : V → ℚ) (dist : V → ℚ → ℚ) (rho : ℚ → ℚ) (R : List V) (rz2 set : List ℚ)
    (step : ℚ) : Py (List ℚ × List ℚ × List ℚ) := do
  let mask := interceptMask (R.map z) rz2
  let set' ← (if 2016 ≤ year then
    (if mask.all (· == false) then .error .value
      else npMask mask set)
    else pure set)
  let vel ← calcRipVelocity id (set'.map rho) (set'.map fun _ => 0) step
  let imp ← calcImpact dist R set'
  pure (set', imp, vel.1)

end Verif.Geo
