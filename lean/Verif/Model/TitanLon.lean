import Mathlib.Analysis.SpecialFunctions.Complex.Arg

/-!
# The longitude of Titan: rss_ringoccs/tools/satellite_tools.py 446-509

Simplifications: what SPICE can compute depends on the loaded kernels alone, given as predicates; loading never fails; the elements of the orbit
(`Verif.Model.Orbit`) are left out.
-/
namespace Verif.Titan
open Real

/-- The kernels of satellite_tools.py 448, and others that the caller may have loaded. -/
inductive Ker
  | tpc | tf | tls | bsp | other (n : Nat)
  deriving DecidableEq, Repr

/-- What SPICE can do with the loaded kernels: the constants of Saturn (lines 458-465) and the state of Titan (line 472). -/
structure Spice where
  consts : List Ker → Bool
  state : List Ker → Bool

/-- satellite_tools.py 450-455: the kernels after the first lines; `spice.ktotal('ALL')` is their number. -/
def startKers (usePresent : Bool) (loaded : List Ker) : List Ker :=
  let count := if usePresent then loaded.length else 0
  if count = 0 then [.tpc, .tf, .tls, .bsp] else loaded

/-- satellite_tools.py 471-488: one more kernel after every failure. -/
def retry (sp : Spice) : List Ker → List Ker → Option (List Ker)
  | [], ks => if sp.state ks then some ks else none
  | k :: more, ks => if sp.state ks then some ks else retry sp more (ks ++ [k])

/-- satellite_tools.py 446-488: the loaded kernels when the state of Titan is known, `none` for an exception. -/
def titanKers (sp : Spice) (usePresent : Bool) (loaded : List Ker) : Option (List Ker) :=
  let ks := startKers usePresent loaded
  if sp.consts ks then retry sp [.tf, .bsp, .tls, .tpc] ks else none

/-- Python's `%` for reals and a positive second argument. -/
noncomputable def rmod (x m : ℝ) : ℝ := x - m * ⌊x / m⌋

/-- satellite_tools.py 495-496: the longitude of the position. -/
noncomputable def lonDeg (x y : ℝ) : ℝ := rmod (Complex.arg ⟨x, y⟩ * (180 / π) + 360) 360

/-- satellite_tools.py 497, 506-509: what is returned, with the mean longitude of the elements. -/
noncomputable def titanLon (meanLon : Bool) (elemLon x y : ℝ) : ℝ := if meanLon then rmod elemLon 360 else lonDeg x y

end Verif.Titan
