import Verif.Model.UranusGeo
import Verif.Props.C83
import Mathlib.Tactic.FieldSimp

/-!
# C140: the geometry of the occultation by Uranus
-/
namespace Verif.UGeo
open Verif.Rsr Verif.Geo Verif.Geo.Spec

/-- The quotient of the differences of radii and times around a point; at an end, between the point and its neighbour. -/
def Spec.quotient (t r : List ℚ) (i : Nat) : ℚ :=
  let a := i - 1
  let b := min (i + 1) (t.length - 1)
  (r.getD b 0 - r.getD a 0) / (t.getD b 0 - t.getD a 0)

/-- The velocity that is stored is the quotient of the differences times the distance of two times. -/
theorem velocity_eq (rad : ℚ → ℚ) (t r phi v w : List ℚ) (d : ℚ) (h2 : 2 ≤ t.length) (hr : r.length = t.length) (hd : 0 < d)
    (ht : ∀ i, i < t.length → t.getD i 0 = t.getD 0 0 + i * d) (e : velocities rad r phi = .ok (v, w)) (i : Nat)
    (hi : i < t.length) : v.getD i 0 = d * Spec.quotient t r i := by
  unfold velocities calcRipVelocity at e
  split_ifs at e with h
  cases e
  unfold Spec.quotient
  simp only
  rw [gradient_getD _ _ _ (by omega), hr]
  have hd' : d ≠ 0 := hd.ne'
  by_cases h0 : i = 0
  · subst h0
    rw [if_pos rfl, min_eq_left (by omega), ht (0 + 1) (by omega)]
    simp only [Nat.zero_sub, zero_add, Nat.cast_one, one_mul, add_sub_cancel_left]
    field_simp
  · rw [if_neg h0]
    have c : ((i - 1 : ℕ) : ℚ) = i - 1 := by rw [Nat.cast_sub (by omega)]; norm_num
    by_cases h1 : i + 1 = t.length
    · rw [if_pos h1, min_eq_right (by omega), ht (t.length - 1) (by omega), ht (i - 1) (by omega)]
      have : t.length - 1 = i := by omega
      rw [this, c]
      have : t.getD 0 0 + i * d - (t.getD 0 0 + (i - 1) * d) = d := by ring
      rw [this]
      field_simp
    · rw [if_neg h1, min_eq_left (by omega), ht (i + 1) (by omega), ht (i - 1) (by omega), c]
      have : t.getD 0 0 + ((i + 1 : ℕ) : ℚ) * d - (t.getD 0 0 + (i - 1) * d) = 2 * d := by push_cast; ring
      rw [this]
      field_simp

/-- **C140** (partial) For times one second apart the velocity at every point is the quotient of the differences of radii and
times around it.  Missing: other distances of the times, see `C140_velocity_false`. -/
theorem C140_velocity_partial (rad : ℚ → ℚ) (t r phi v w : List ℚ) (h2 : 2 ≤ t.length) (hr : r.length = t.length)
    (ht : ∀ i, i < t.length → t.getD i 0 = t.getD 0 0 + i) (e : velocities rad r phi = .ok (v, w)) (i : Nat)
    (hi : i < t.length) : v.getD i 0 = Spec.quotient t r i := by
  have := velocity_eq rad t r phi v w 1 h2 hr one_pos (by intro j hj; rw [mul_one]; exact ht j hj) e i hi
  rwa [one_mul] at this

example : ∀ v w, velocities (id : ℚ → ℚ) [10, 5, 2, 6] [1, 2, 3, 4] = .ok (v, w) → v.getD 1 0 = -4 := by
  intro v w e
  rw [C140_velocity_partial id [100, 101, 102, 103] [10, 5, 2, 6] [1, 2, 3, 4] v w (by decide) rfl (by decide +kernel) e 1 (by decide)]
  decide +kernel

/-- **C140** (false) For every other distance `d` of the times and at every point where the radii around it differ, the velocity is
not the quotient: it is `d` times as large. -/
theorem C140_velocity_false (rad : ℚ → ℚ) (t r phi v w : List ℚ) (d : ℚ) (h2 : 2 ≤ t.length) (hr : r.length = t.length) (hd : 0 < d)
    (hd1 : d ≠ 1) (ht : ∀ i, i < t.length → t.getD i 0 = t.getD 0 0 + i * d) (e : velocities rad r phi = .ok (v, w)) (i : Nat)
    (hi : i < t.length) (hq : Spec.quotient t r i ≠ 0) :
    v.getD i 0 = d * Spec.quotient t r i ∧ v.getD i 0 ≠ Spec.quotient t r i := by
  have k := velocity_eq rad t r phi v w d h2 hr hd ht e i hi
  refine ⟨k, ?_⟩
  rw [k]
  intro x
  exact hd1 (mul_right_cancel₀ hq (by rw [x, one_mul]))

example : velocities (id : ℚ → ℚ) [10, 5, 2, 6] [1, 2, 3, 4] = .ok ([-5, -4, 1 / 2, 4], [10, 5, 2, 6]) ∧
    Spec.quotient [100, 102, 104, 106] [10, 5, 2, 6] 1 = -2 := by
  constructor <;> decide +kernel

/-- **C140** For all radii that only fall, or only grow, that is the direction found, and nothing is removed. -/
theorem C140_monotone (g : Geom) (h2 : 2 ≤ g.rho.length) :
    (Falling g.rho → getProfileDir g = .ok (.ingress, g)) ∧ (Growing g.rho → getProfileDir g = .ok (.egress, g)) := by
  unfold getProfileDir
  rw [if_neg (by omega)]
  constructor
  · intro h
    have a := steps_of_pairwise h 0 1 (by omega) (by omega)
    have b := steps_of_pairwise h (g.rho.length - 2) (g.rho.length - 1) (by omega) (by omega)
    simp only at a b ⊢
    rw [if_pos ⟨by linarith, by linarith⟩]
  · intro h
    have a := steps_of_pairwise h 0 1 (by omega) (by omega)
    have b := steps_of_pairwise h (g.rho.length - 2) (g.rho.length - 1) (by omega) (by omega)
    simp only at a b ⊢
    rw [if_neg (by rintro ⟨x, -⟩; linarith), if_pos ⟨by linarith, by linarith⟩]

example : getProfileDir ⟨[10, 8, 5], [-2, -5/2, -3], [0, 1, 2], [], []⟩ = .ok (.ingress, ⟨[10, 8, 5], [-2, -5/2, -3], [0, 1, 2], [], []⟩) :=
  (C140_monotone ⟨[10, 8, 5], [-2, -5/2, -3], [0, 1, 2], [], []⟩ (by decide)).1 (by unfold Falling; decide +kernel)

/-- A chord goes to `verifyChord`. -/
theorem chord_dir {g : Geom} {m : Nat} (c : Chord g.rho m) : getProfileDir g = verifyChord g := by
  obtain ⟨h1, h2⟩ := c.inside
  unfold getProfileDir
  have a := c.falls 0 (by omega)
  have b := c.grows (g.rho.length - 2) (by omega) (by omega)
  have e2 : g.rho.length - 2 + 1 = g.rho.length - 1 := by omega
  rw [e2] at b
  rw [zero_add] at a
  rw [if_neg (by omega)]
  simp only
  rw [if_neg (by rintro ⟨-, x⟩; linarith), if_neg (by rintro ⟨x, -⟩; linarith)]

/-- **C140** (partial) For every chord whose radius after the least one is greater than the one before, with one interval of blocked
times: if all of the ingress but not all of the egress is blocked, or the other way round, exactly the blocked rows are removed
from all arrays, and the direction is that of what remains; if some of both is free, nothing is removed and the direction is
`both`.  Missing: the other chords, see `C140_symmetric_false` and `C140_last_false`. -/
theorem C140_chord_partial (g : Geom) (m a b : Nat) (c : Chord g.rho m) (hv : g.rhoDot = gradient g.rho 1)
    (h : g.rho.getD (m - 1) 0 < g.rho.getD (m + 1) 0) (hb : Blocked g a b) :
    (a = 0 ∧ m ≤ b → Growing (without a b g.rho) ∧ getProfileDir g =
      .ok (.egress, ⟨without a b g.rho, without a b g.rhoDot, without a b g.spm, g.atmos, g.cols.map (without a b)⟩)) ∧
    (0 < a ∧ a ≤ m + 1 ∧ b + 1 = g.spm.length → Falling (without a b g.rho) ∧ getProfileDir g =
      .ok (.ingress, ⟨without a b g.rho, without a b g.rhoDot, without a b g.spm, g.atmos, g.cols.map (without a b)⟩)) ∧
    ((0 < a ∨ b < m) ∧ (m + 1 < a ∨ b + 1 < g.spm.length) → getProfileDir g = .ok (.both, g)) := by
  obtain ⟨k, e, rfl, -⟩ := C82_split_partial g.rho m 1 c one_pos h
  rw [chord_dir c]
  unfold verifyChord
  rw [hv, e]
  simp only [← hv]
  exact verifyAtmos_chord g m a b c hb

/-- The radii of this example are those beyond 170000 km, where `Geometry` fails. -/
example : getProfileDir ⟨[180010, 180005, 180002, 180006, 180009], gradient [180010, 180005, 180002, 180006, 180009] 1, [0, 1, 2, 3, 4],
    [0, 1, 2], [[7, 8, 9, 10, 11]]⟩ = .ok (.egress, ⟨[180006, 180009], [7 / 2, 3], [3, 4], [0, 1, 2], [[10, 11]]⟩) := by
  have b : Blocked ⟨[180010, 180005, 180002, 180006, 180009], gradient [180010, 180005, 180002, 180006, 180009] 1, [0, 1, 2, 3, 4],
      [0, 1, 2], [[7, 8, 9, 10, 11]]⟩ 0 2 :=
    { rho := rfl, rhoDot := rfl, cols := by decide, growing := by unfold Growing; decide +kernel, order := by decide,
      some := by decide, atmos := rfl }
  have c : Chord [180010, 180005, 180002, 180006, 180009] 2 := by
    refine ⟨by decide, ?_, ?_⟩
    · intro i hi
      have : i = 0 ∨ i = 1 := by omega
      rcases this with rfl | rfl <;> decide +kernel
    · intro i hi hn
      have : i = 2 ∨ i = 3 := by simp at hn; omega
      rcases this with rfl | rfl <;> decide +kernel
  rw [((C140_chord_partial _ 2 0 2 c rfl (by decide +kernel) b).1 (by decide)).2]
  decide +kernel

/-- **C140** (false) For every chord with equal radii just before and just after the least one the direction is not found: the
method raises `TypeError`. -/
theorem C140_symmetric_false (g : Geom) (m : Nat) (c : Chord g.rho m) (hv : g.rhoDot = gradient g.rho 1)
    (h : g.rho.getD (m + 1) 0 = g.rho.getD (m - 1) 0) : getProfileDir g = .error .type := by
  have e : getChordInd (gradient g.rho 1) = .many [m - 1, m] := by
    unfold getChordInd
    rw [chord_changes c one_pos, if_neg (by linarith), if_neg (by linarith)]
  rw [chord_dir c]
  unfold verifyChord
  rw [hv, e]

example : getProfileDir ⟨[10, 5, 2, 5, 9], gradient [10, 5, 2, 5, 9] 1, [0, 1, 2, 3, 4], [], []⟩ = .error .type := by decide +kernel

/-- **C140** (false) For every chord whose last but one radius is the least, with the last one smaller than the one before the
least, and no blocked times: the egress is taken to be empty, its blocked rows are to be removed, and the least of no times is a
`ValueError`. -/
theorem C140_last_false (g : Geom) (m : Nat) (c : Chord g.rho m) (hv : g.rhoDot = gradient g.rho 1)
    (h : g.rho.getD (m + 1) 0 < g.rho.getD (m - 1) 0) (hm : m + 2 = g.rho.length) (hl : g.spm.length = g.rho.length)
    (ha : g.atmos = []) : getProfileDir g = .error .value := by
  have e := (C82_late_false g.rho m 1 c one_pos h).1
  rw [chord_dir c]
  unfold verifyChord
  rw [hv, e]
  simp only
  unfold verifyAtmos
  simp only
  have x : (g.spm.take (m + 2)).filter (fun t => decide (t ∈ g.atmos)) = [] := by
    rw [ha]
    simp
  have y : g.spm.drop (m + 2) = [] := List.drop_eq_nil_of_le (by omega)
  rw [x, y, if_neg (by simp; omega), List.filter_nil, if_pos rfl]
  unfold removeAtmos
  rw [ha]
  rfl

example : getProfileDir ⟨[10, 5, 2, 3], gradient [10, 5, 2, 3] 1, [0, 1, 2, 3], [], []⟩ = .error .value := by
  refine C140_last_false _ 2 ?_ rfl (by decide +kernel) rfl rfl rfl
  refine ⟨by decide, ?_, ?_⟩
  · intro i hi
    have : i = 0 ∨ i = 1 := by omega
    rcases this with rfl | rfl <;> decide +kernel
  · intro i hi hn
    have : i = 2 := by simp at hn; omega
    subst this
    decide +kernel

end Verif.UGeo
