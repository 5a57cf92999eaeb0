import Verif.Model.PoleView
import Mathlib.Tactic.Linarith
import Mathlib.Tactic.Ring
import Mathlib.Tactic.NormNum

/-!
# The view from above the pole (C222, C223)
-/
namespace Verif.Sky
open Real

/-- `v` turned counter-clockwise by `deg` degrees. -/
noncomputable def Spec.turn (deg : ℝ) (v : ℝ × ℝ) : ℝ × ℝ :=
  (v.1 * cos (deg * π / 180) - v.2 * sin (deg * π / 180), v.1 * sin (deg * π / 180) + v.2 * cos (deg * π / 180))

/-- The place of a point of the track: `u` is the unit vector of the drawing towards Earth. -/
noncomputable def Spec.polePlace (u : ℝ × ℝ) (rho phi : ℝ) : ℝ × ℝ := (rho * (turn phi u).1, rho * (turn phi u).2)

theorem poleXY_eq (s : ℝ × ℝ) : poleXY s = Spec.polePlace (0, -1) s.1 s.2 := by
  have h : (s.2 - 90) * (π / 180) = s.2 * π / 180 - π / 2 := by ring
  simp only [poleXY, Spec.polePlace, Spec.turn, h, Real.cos_sub_pi_div_two, Real.sin_sub_pi_div_two]
  simp

theorem poleR_eq (s : ℝ × ℝ) (h : 0 ≤ s.1) : poleR (poleXY s) = s.1 := by
  have : (s.1 * cos ((s.2 - 90) * (π / 180))) ^ 2 + (s.1 * sin ((s.2 - 90) * (π / 180))) ^ 2 = s.1 ^ 2 := by
    have := Real.sin_sq_add_cos_sq ((s.2 - 90) * (π / 180))
    linear_combination s.1 ^ 2 * this
  simp only [poleR, poleXY, this, Real.sqrt_sq h]

/-- The direction to Earth is drawn downwards. -/
theorem C222_earth : ∃ a b : ℝ, 0 < a ∧ a < b ∧ poleEarth = ((a * 0, a * (-1)), (b * 0, b * (-1))) :=
  ⟨68000, 180000, by norm_num, by norm_num, by norm_num [poleEarth]⟩

open Classical in
theorem pole_filter (P : ℝ → Prop) (track : List (ℝ × ℝ)) (h : ∀ s ∈ track, 0 ≤ s.1) :
    ((poleTrack track).filter fun q => P (poleR q)) =
      (track.filter fun s => s.1 ≤ 150000 ∧ P s.1).map fun s => Spec.polePlace (0, -1) s.1 s.2 := by
  induction track with
  | nil => rfl
  | cons s t ih =>
    have ih := ih fun x hx => h x (List.mem_cons_of_mem _ hx)
    have hs := poleR_eq s (h s List.mem_cons_self)
    simp only [poleTrack] at ih ⊢
    by_cases h1 : s.1 ≤ 150000
    · by_cases h2 : P s.1
      · rw [List.filter_cons_of_pos (by simp [h1]), List.map_cons, List.filter_cons_of_pos (by simp [hs, h2]),
          List.filter_cons_of_pos (by simp [h1, h2]), List.map_cons, ih, poleXY_eq s]
      · rw [List.filter_cons_of_pos (by simp [h1]), List.map_cons, List.filter_cons_of_neg (by simp [hs, h2]),
          List.filter_cons_of_neg (by simp [h2]), ih]
    · rw [List.filter_cons_of_neg (by simp [h1]), List.filter_cons_of_neg (by simp [h1]), ih]

open Classical in
/-- Every point of the track up to 150000 km, in its order and nothing else, is drawn at its radius and at its longitude counted from the direction to Earth: with a solid line outside the equator of the planet, with a dashed line inside it. -/
theorem C222_track (Re : ℝ) (track : List (ℝ × ℝ)) (h : ∀ s ∈ track, 0 ≤ s.1) :
    poleSolid Re track = (track.filter fun s => s.1 ≤ 150000 ∧ Re < s.1).map (fun s => Spec.polePlace (0, -1) s.1 s.2) ∧
    poleDashed Re track = (track.filter fun s => s.1 ≤ 150000 ∧ s.1 < Re).map (fun s => Spec.polePlace (0, -1) s.1 s.2) :=
  ⟨pole_filter (fun r => r > Re) track h, pole_filter (fun r => r < Re) track h⟩

/-- A point at right angles to Earth, one towards Earth behind the planet, and one too far away. -/
example : poleSolid 60268 [(100000, 90), (50000, 0), (200000, 0)] = [(100000, 0)] ∧
    poleDashed 60268 [(100000, 90), (50000, 0), (200000, 0)] = [(0, -50000)] := by
  obtain ⟨a, b⟩ := C222_track 60268 [(100000, 90), (50000, 0), (200000, 0)] (by simp)
  rw [a, b]
  have h : (90 : ℝ) * π / 180 = π / 2 := by ring
  norm_num [List.filter, Spec.polePlace, Spec.turn, h]

/-- The markers of a track are its points at the times 0, 30 min, 60 min, ... after its first drawn point. -/
def Spec.HalfHours (place : ℝ → ℝ → ℝ × ℝ) (track : List (ℝ × ℝ)) (first : Nat) (marker : Nat → Option (ℝ × ℝ)) : Prop :=
  ∀ k q, marker k = some q → ∃ s, track[first + 1800 * k]? = some s ∧ q = place s.1 s.2

/-- The markers are half an hour apart when all points are outside the planet and within 150000 km. -/
theorem C223_markers_partial (Re : ℝ) (hRe : 0 ≤ Re) (track : List (ℝ × ℝ)) (h : ∀ s ∈ track, Re < s.1 ∧ s.1 ≤ 150000) :
    Spec.HalfHours (Spec.polePlace (0, -1)) track 0 (poleMarker Re track) ∧
    ∀ k, 1800 * k < track.length → (poleMarker Re track k).isSome := by
  classical
  have e : poleSolid Re track = track.map (fun s => Spec.polePlace (0, -1) s.1 s.2) := by
    rw [(C222_track Re track fun s hs => le_trans hRe (h s hs).1.le).1, List.filter_eq_self.mpr]
    intro s hs
    simp [h s hs]
  constructor
  · intro k q hk
    simp only [poleMarker, e, List.getElem?_map, Option.map_eq_some_iff] at hk
    obtain ⟨s, hs, rfl⟩ := hk
    exact ⟨s, by rw [← hs]; congr 1; omega, rfl⟩
  · intro k hk
    have : 60 * 30 * k < track.length := by omega
    simp [poleMarker, e]
    omega

/-- An hour outside the planet. -/
example : ∃ q, poleMarker 60268 (List.replicate 3600 (100000, 0)) 1 = some q := by
  have := (C223_markers_partial 60268 (by norm_num) (List.replicate 3600 (100000, 0)) (by
    intro s hs; rw [List.eq_of_mem_replicate hs]; norm_num)).2 1 (by rw [List.length_replicate]; norm_num)
  exact Option.isSome_iff_exists.mp this

/-- A track outwards at 1 km/s, of which the second point is behind the planet. -/
noncomputable def poleWitness : List (ℝ × ℝ) :=
  (100000, 0) :: (10000, 0) :: (List.range 1800).map fun i : Nat => ((100002 : ℝ) + i, (0 : ℝ))

/-- The markers are not half an hour apart: points that are not drawn do not count. -/
theorem C223_markers_false : ∃ (Re : ℝ) (track : List (ℝ × ℝ)), 0 ≤ Re ∧ (∀ s ∈ track, 0 ≤ s.1 ∧ s.1 ≤ 150000) ∧
    (∃ s, track[0]? = some s ∧ Re < s.1) ∧ ¬ Spec.HalfHours (Spec.polePlace (0, -1)) track 0 (poleMarker Re track) := by
  classical
  have hb : ∀ i ∈ List.range 1800, (i : ℝ) ≤ 1800 := by
    intro i hi
    exact_mod_cast (List.mem_range.mp hi).le
  have hr : ∀ s ∈ poleWitness, 0 ≤ s.1 ∧ s.1 ≤ 150000 := by
    intro s hs
    simp only [poleWitness, List.mem_cons, List.mem_map] at hs
    rcases hs with rfl | rfl | ⟨i, hi, rfl⟩
    · norm_num
    · norm_num
    · have := hb i hi
      have h0 : (0 : ℝ) ≤ i := Nat.cast_nonneg i
      constructor <;> dsimp only <;> linarith
  refine ⟨60268, poleWitness, by norm_num, hr, ⟨(100000, 0), rfl, by norm_num⟩, fun H => ?_⟩
  have e : poleSolid 60268 poleWitness = ((100000, 0) :: (List.range 1800).map fun i : Nat => ((100002 : ℝ) + i, (0 : ℝ))).map
      (fun s => Spec.polePlace (0, -1) s.1 s.2) := by
    rw [(C222_track 60268 poleWitness fun s hs => (hr s hs).1).1]
    congr 1
    rw [poleWitness, List.filter_cons_of_pos (by norm_num), List.filter_cons_of_neg (by norm_num), List.filter_eq_self.mpr]
    intro s hs
    obtain ⟨i, hi, rfl⟩ := List.mem_map.mp hs
    have := hb i hi
    have h0 : (0 : ℝ) ≤ i := Nat.cast_nonneg i
    simp only [decide_eq_true_eq]
    constructor <;> linarith
  have hm : poleMarker 60268 poleWitness 1 = some (Spec.polePlace (0, -1) (100002 + (1799 : Nat)) 0) := by
    rw [poleMarker, e, List.getElem?_map, show 60 * 30 * 1 = 1799 + 1 from rfl, List.getElem?_cons_succ, List.getElem?_map,
      List.getElem?_range (by norm_num)]
    rfl
  obtain ⟨s, hs, hq⟩ := H 1 _ hm
  have ht : poleWitness[0 + 1800 * 1]? = some ((100002 : ℝ) + (1798 : Nat), (0 : ℝ)) := by
    rw [poleWitness, show 0 + 1800 * 1 = 1798 + 1 + 1 from rfl, List.getElem?_cons_succ, List.getElem?_cons_succ, List.getElem?_map,
      List.getElem?_range (by norm_num)]
    rfl
  rw [ht] at hs
  cases hs
  norm_num [Spec.polePlace, Spec.turn] at hq

end Verif.Sky
