import Verif.Model.GeoReal

/-!
# The state of the spacecraft when another frame than J2000 is asked for

Simplifications: as in `Verif.Model.GeoReal`.  Positions and velocities that SPICE computes are arguments in J2000, and `rot` takes vectors of J2000 to the frame `ref`; the pole
`nhat` is given in `ref`, as rss_ringoccs/occgeo/occgeo.py does.
-/
namespace Verif.Geo

/-- rss_ringoccs/occgeo/calc_occ_geometry.py 534-555 for one time: `calc_sc_state`; lines 550-552 do not pass `ref`, so the line of sight of the transformation is that of J2000.
Position and velocity from planet to spacecraft are `pos` and `vel`, `los` is the vector from spacecraft to station. -/
noncomputable def scState (rot : M3) (pos vel los nhat : V3) : V3 × V3 :=
  (xformPcf los nhat (rot.mxv pos), xformPcf los nhat (rot.mxv vel))

/-- rss_ringoccs/occgeo/calc_occ_geometry.py 238-246 for one time: the line of sight in the planet's frame; line 242 uses `ref`, the transformation does not. -/
noncomputable def sightPcf (rot : M3) (los nhat : V3) : V3 := xformPcf los nhat (rot.mxv los)

/-- rss_ringoccs/occgeo/calc_occ_geometry.py 230-254 for one time: `calc_impact_radius_km`. -/
noncomputable def impactKm (rot : M3) (pos vel los nhat : V3) : ℝ := lineDist (scState rot pos vel los nhat).1 (sightPcf rot los nhat) ⟨0, 0, 0⟩

end Verif.Geo
