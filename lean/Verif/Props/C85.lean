import Verif.Model.GeoInit
import Verif.Spec.GeoInit
import Verif.Props.C84
import Mathlib.Tactic.FieldSimp
import Mathlib.Tactic.Positivity

/-!
# C85, C89: radii in the kernel pool, rows of a `Geometry` object
-/
namespace Verif.Geo
open Verif.Rsr Spec

/-- **C85** For all times at which the line of sight meets the ring plane, whatever is in the pool: the intercepts are those with
a flat ellipsoid, and the radii are afterwards what they were before, or what the kernels say. -/
theorem C85_restore {β : Type} (load : Option Radii) (sinc : Radii → ℚ → Option β) (ets : List ℚ) (pool : Radii)
    (f : ℚ → β) (h : ∀ t ∈ ets, sinc (1000000, 1000000, 1 / 100000) t = some (f t)) :
    calcRhoVec load sinc ets pool = (load.getD pool, some (ets.map f)) := by
  have e : flatRadii = (1000000, 1000000, 1 / 100000) := by unfold flatRadii; norm_num
  have m : ets.mapM (sinc flatRadii) = some (ets.map f) := by
    rw [e]
    clear e
    induction ets with
    | nil => rfl
    | cons a l ih =>
      rw [List.mapM_cons, h a (by simp), ih (fun t ht => h t (by simp [ht]))]
      rfl
  unfold calcRhoVec
  rw [m]

example : calcRhoVec (some (60268, 60268, 54364)) (fun r t => some (r.1 * t)) [1, 2] (0, 0, 0) =
    ((60268, 60268, 54364), some [1000000, 2000000]) := by
  rw [C85_restore _ _ _ _ (fun t => 1000000 * t) (fun t _ => rfl)]; decide +kernel

/-- **C85** is false if SPICE finds no intercept at some time: the exception leaves the flat ellipsoid in the pool, for all
kernels and times. -/
theorem C85_failed_false {β : Type} (load : Option Radii) (sinc : Radii → ℚ → Option β) (ets : List ℚ) (pool : Radii)
    (t : ℚ) (ht : t ∈ ets) (h : sinc (1000000, 1000000, 1 / 100000) t = none) :
    calcRhoVec load sinc ets pool = ((1000000, 1000000, 1 / 100000), none) := by
  have e : flatRadii = (1000000, 1000000, 1 / 100000) := by unfold flatRadii; norm_num
  have m : ets.mapM (sinc flatRadii) = none := by
    rw [e]
    clear e
    induction ets with
    | nil => simp at ht
    | cons a l ih =>
      rw [List.mapM_cons]
      cases ha : sinc (1000000, 1000000, 1 / 100000) a with
      | none => rfl
      | some b =>
        have : t ∈ l := by
          rcases List.mem_cons.mp ht with rfl | h'
          · rw [h] at ha; cases ha
          · exact h'
        rw [ih this]
        rfl
  unfold calcRhoVec
  rw [m, e]

example : calcRhoVec (β := ℚ) none (fun _ t => if t < 2 then some t else none) [1, 2] (60268, 60268, 54364) =
    ((1000000, 1000000, 1 / 100000), none) :=
  C85_failed_false _ _ _ _ 2 (by decide) (by decide +kernel)

/-- What the constructor does with the radii when all intercepts exist. -/
theorem geometryRadii_ok {β : Type} (year : Int) (load : Option Radii) (sinc ul : Radii → ℚ → Option β)
    (occult : Radii → ℚ → Bool) (oet set : List ℚ) (pool : Radii) (f g : ℚ → β)
    (hf : ∀ t ∈ oet, sinc (1000000, 1000000, 1 / 100000) t = some (f t))
    (hg : ∀ t ∈ set, ul (1000000, 1000000, 1 / 100000) t = some (g t)) :
    geometryRadii year load sinc ul occult oet set pool = some ⟨oet.map f, oet.filter (occult ((load.getD pool).add 5000)),
      oet.filter (occult ((load.getD pool).add 5500)), (load.getD pool).add 5500⟩ := by
  have add : ∀ r : Radii, (r.add 5000).add 500 = r.add 5500 := by
    intro r; unfold Radii.add; simp only [add_assoc]; norm_num
  unfold geometryRadii
  rw [C85_restore load sinc oet pool f hf]
  simp only
  by_cases hy : 2011 ≤ year
  · rw [if_pos hy, C85_restore none ul set _ g hg]
    simp only [getPlanetOccTimes, Option.getD_none, add]
  · rw [if_neg hy]
    simp only [getPlanetOccTimes, Option.getD_none, add]

/-- **C85** (partial) With the kernels given, for all times with intercepts: the times in the ionosphere are those at which a
planet 5000 km larger hides the spacecraft, and the times in the atmosphere contain those at which one 500 km larger does.
Missing: that they are no others, see `C85_atmos_false`. -/
theorem C85_blocked_partial {β : Type} (year : Int) (r : Radii) (sinc ul : Radii → ℚ → Option β) (occult : Radii → ℚ → Bool)
    (oet set : List ℚ) (pool : Radii) (f g : ℚ → β) (hf : ∀ t ∈ oet, sinc (1000000, 1000000, 1 / 100000) t = some (f t))
    (hg : ∀ t ∈ set, ul (1000000, 1000000, 1 / 100000) t = some (g t)) (ho : Grows occult) :
    ∃ run, geometryRadii year (some r) sinc ul occult oet set pool = some run ∧ run.rho = oet.map f ∧
      (∀ t, t ∈ run.ionos ↔ t ∈ oet ∧ occult (r.1 + 5000, r.2.1 + 5000, r.2.2 + 5000) t = true) ∧
      ∀ t, t ∈ oet → occult (r.1 + 500, r.2.1 + 500, r.2.2 + 500) t = true → t ∈ run.atmos := by
  refine ⟨_, geometryRadii_ok year (some r) sinc ul occult oet set pool f g hf hg, rfl, ?_, ?_⟩
  · intro t
    rw [List.mem_filter]
    rfl
  · intro t ht h
    rw [List.mem_filter]
    refine ⟨ht, ho _ _ ?_ ?_ ?_ t h⟩
    · show r.1 + 500 ≤ r.1 + 5500; linarith
    · show r.2.1 + 500 ≤ r.2.1 + 5500; linarith
    · show r.2.2 + 500 ≤ r.2.2 + 5500; linarith

/-- Radial distances 70000, 64000, 60500 from the centre, and a spherical planet of 60268 km. -/
example : (geometryRadii 2005 (some (60268, 60268, 60268)) (fun _ t => some t) (fun _ t => some t) (fun r t => decide (t < r.1))
    [70000, 64000, 60500] [] (0, 0, 0)).map (fun run => (run.ionos, run.atmos)) =
    some ([64000, 60500], [64000, 60500]) := by decide +kernel

example : ∃ run, geometryRadii 2005 (some (60268, 60268, 60268)) (fun _ t => some t) (fun _ t => some t)
    (fun r t => decide (t < r.1)) [70000, 64000, 60500] [] (0, 0, 0) = some run ∧ 60500 ∈ run.atmos := by
  obtain ⟨run, h, -, -, k⟩ := C85_blocked_partial 2005 (60268, 60268, 60268) (fun _ t => some t) (fun _ t => some t)
    (fun r t => decide (t < r.1)) [70000, 64000, 60500] [] (0, 0, 0) id id (fun _ _ => rfl) (fun _ _ => rfl)
    (by intro r r' h1 _ _ t h; simp only [decide_eq_true_eq] at h ⊢; linarith)
  exact ⟨run, h, k 60500 (by decide) (by decide +kernel)⟩

/-- **C85** is false of the atmosphere for all kernels and times: the radii of the call for the ionosphere are still in the
pool, and the planet used is 5500 km larger instead of 500 km. -/
theorem C85_atmos_false {β : Type} (year : Int) (load : Option Radii) (sinc ul : Radii → ℚ → Option β) (occult : Radii → ℚ → Bool)
    (oet set : List ℚ) (pool : Radii) (f g : ℚ → β) (hf : ∀ t ∈ oet, sinc (1000000, 1000000, 1 / 100000) t = some (f t))
    (hg : ∀ t ∈ set, ul (1000000, 1000000, 1 / 100000) t = some (g t)) :
    ∃ run, geometryRadii year load sinc ul occult oet set pool = some run ∧
      (∀ t, t ∈ run.atmos ↔ t ∈ oet ∧ occult ((load.getD pool).1 + 5500, (load.getD pool).2.1 + 5500, (load.getD pool).2.2 + 5500) t = true) ∧
      run.pool = ((load.getD pool).1 + 5500, (load.getD pool).2.1 + 5500, (load.getD pool).2.2 + 5500) := by
  refine ⟨_, geometryRadii_ok year load sinc ul occult oet set pool f g hf hg, ?_, rfl⟩
  intro t
  rw [List.mem_filter]
  rfl

/-- A ray 3732 km above the planet is taken for one in the atmosphere. -/
example : ∃ run, geometryRadii 2005 (some (60268, 60268, 60268)) (fun _ t => some t) (fun _ t => some t)
    (fun r t => decide (t < r.1)) [70000, 64000, 60500] [] (0, 0, 0) = some run ∧ 64000 ∈ run.atmos ∧
      ¬ (64000 : ℚ) < 60268 + 500 := by
  obtain ⟨run, h, k, -⟩ := C85_atmos_false 2005 (some (60268, 60268, 60268)) (fun _ t => some t) (fun _ t => some t)
    (fun r t => decide (t < r.1)) [70000, 64000, 60500] [] (0, 0, 0) id id (fun _ _ => rfl) (fun _ _ => rfl)
  exact ⟨run, h, (k 64000).mpr ⟨by decide, by decide +kernel⟩, by norm_num⟩

/-- **C85** is false of the ionosphere for a second object made without the keyword for kernels: the planet of its first call is
already 5500 km too large, and each object adds as much. -/
theorem C85_second_false {β : Type} (year : Int) (sinc ul : Radii → ℚ → Option β) (occult : Radii → ℚ → Bool) (oet set : List ℚ)
    (r : Radii) (f g : ℚ → β) (hf : ∀ t ∈ oet, sinc (1000000, 1000000, 1 / 100000) t = some (f t))
    (hg : ∀ t ∈ set, ul (1000000, 1000000, 1 / 100000) t = some (g t)) :
    ∃ run run', geometryRadii year none sinc ul occult oet set r = some run ∧
      geometryRadii year none sinc ul occult oet set run.pool = some run' ∧
      (∀ t, t ∈ run'.ionos ↔ t ∈ oet ∧ occult (r.1 + 10500, r.2.1 + 10500, r.2.2 + 10500) t = true) ∧
      run'.pool = (r.1 + 11000, r.2.1 + 11000, r.2.2 + 11000) := by
  refine ⟨_, _, geometryRadii_ok year none sinc ul occult oet set r f g hf hg,
    geometryRadii_ok year none sinc ul occult oet set _ f g hf hg, ?_, ?_⟩
  · intro t
    rw [List.mem_filter]
    have e : (((none : Option Radii).getD (((none : Option Radii).getD r).add 5500)).add 5000) =
        (r.1 + 10500, r.2.1 + 10500, r.2.2 + 10500) := by
      simp only [Option.getD_none, Radii.add, add_assoc]; norm_num
    rw [e]
  · simp only [Option.getD_none, Radii.add, add_assoc]; norm_num

example : ∃ run run' : PoolRun ℚ,
    geometryRadii 2005 none (fun _ t => some t) (fun _ t => some t) (fun r t => decide (t < r.1)) [70000] [] (60268, 60268, 60268) = some run ∧
    geometryRadii 2005 none (fun _ t => some t) (fun _ t => some t) (fun r t => decide (t < r.1)) [70000] [] run.pool = some run' ∧
    70000 ∈ run'.ionos ∧ ¬ (70000 : ℚ) < 60268 + 5000 := by
  obtain ⟨run, run', h, h', k, -⟩ := C85_second_false 2005 (fun _ t => some t) (fun _ t => some t)
    (fun r t => decide (t < r.1)) [70000] [] (60268, 60268, 60268) id id (fun _ _ => rfl) (fun _ _ => rfl)
  exact ⟨run, run', h, h', (k 70000).mpr ⟨by decide, by decide +kernel⟩, by norm_num⟩

end Verif.Geo
