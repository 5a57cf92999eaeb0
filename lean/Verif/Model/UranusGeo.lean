import Verif.Model.Geo

/-!
# The geometry of the Voyager 2 occultation by Uranus

Simplifications: as in `Verif.Model.Geo`; attributes other than arrays (texts, the list of kernels, dictionaries) do not have as many
elements as there are times.
-/
namespace Verif.UGeo
open Verif.Rsr Verif.Geo

/-- rss_ringoccs/occgeo/occgeo_uranus.py 204-207: the velocities; the step is always one second, whatever `pt_per_sec` and the times are. -/
def velocities {K : Type} [Field K] (rad : K → K) (rho phi : List K) : Py (List K × List K) := calcRipVelocity rad rho phi 1

/-- rss_ringoccs/occgeo/occgeo_uranus.py 332-363.  The slices `[:None]` and `[None:]` are the whole array; an array as index is a
`TypeError`.  Lines 339-361 and 365-389 are those of `Geometry` (`verifyAtmos`, `removeAtmos`; line 376 makes the array of indices before the test of line 379, which ends the function if it holds). -/
def verifyChord (g : Geom) : Py (Dir × Geom) :=
  match getChordInd g.rhoDot with
  | .many _ => .error .type
  | .at k => verifyAtmos g k
  | .none =>
    if (g.spm.filter (· ∈ g.atmos)).length = g.spm.length then do
      let g' ← removeAtmos g
      pure (.egress, g')
    else pure (.both, g)

/-- rss_ringoccs/occgeo/occgeo_uranus.py 299-320. -/
def getProfileDir (g : Geom) : Py (Dir × Geom) :=
  if g.rho.length < 2 then .error .index
  else
    let s := g.rho.getD 1 0 - g.rho.getD 0 0
    let e := g.rho.getD (g.rho.length - 1) 0 - g.rho.getD (g.rho.length - 2) 0
    if s < 0 ∧ e < 0 then .ok (.ingress, g)
    else if 0 < s ∧ 0 < e then .ok (.egress, g)
    else verifyChord g

end Verif.UGeo
