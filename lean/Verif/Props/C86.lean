import Verif.Model.Gaps
import Verif.Spec.Gaps
import Mathlib.Tactic.Linarith
import Mathlib.Tactic.FieldSimp
import Mathlib.Tactic.Positivity

/-!
# C86: radius of an eccentric edge
-/
namespace Verif.Geo
open Verif.Rsr Spec

theorem pyMinL_spec (l : List ℚ) (h : l ≠ []) : ∃ m, pyMinL l = .ok m ∧ m ∈ l ∧ ∀ y ∈ l, m ≤ y := by
  cases l with
  | nil => exact absurd rfl h
  | cons x xs =>
    refine ⟨_, rfl, ?_⟩
    clear h
    induction xs generalizing x with
    | nil => exact ⟨by simp, by simp⟩
    | cons y ys ih =>
      obtain ⟨h1, h2⟩ := ih (min x y)
      rw [List.foldl_cons]
      constructor
      · rcases List.mem_cons.mp h1 with h | h
        · rcases min_choice x y with e | e
          · rw [h, e]; simp
          · rw [h, e]; simp
        · simp [h]
      · intro z hz
        have hm := h2 (min x y) (by simp)
        rcases List.mem_cons.mp hz with rfl | hz
        · exact hm.trans (min_le_left _ _)
        rcases List.mem_cons.mp hz with rfl | hz
        · exact hm.trans (min_le_right _ _)
        · exact h2 z (by simp [hz])

theorem pyMaxL_spec (l : List ℚ) (h : l ≠ []) : ∃ m, pyMaxL l = .ok m ∧ m ∈ l ∧ ∀ y ∈ l, y ≤ m := by
  cases l with
  | nil => exact absurd rfl h
  | cons x xs =>
    refine ⟨_, rfl, ?_⟩
    clear h
    induction xs generalizing x with
    | nil => exact ⟨by simp, by simp⟩
    | cons y ys ih =>
      obtain ⟨h1, h2⟩ := ih (max x y)
      rw [List.foldl_cons]
      constructor
      · rcases List.mem_cons.mp h1 with h | h
        · rcases max_choice x y with e | e
          · rw [h, e]; simp
          · rw [h, e]; simp
        · simp [h]
      · intro z hz
        have hm := h2 (max x y) (by simp)
        rcases List.mem_cons.mp hz with rfl | hz
        · exact (le_max_left _ _).trans hm
        rcases List.mem_cons.mp hz with rfl | hz
        · exact (le_max_right _ _).trans hm
        · exact h2 z (by simp [hz])

theorem nearest_ok (rho : List ℚ) (g : ℚ) (h : rho ≠ []) :
    ∃ ind, nearest rho g = .ok ind ∧ (∀ i ∈ ind, i < rho.length) ∧ ∀ i, Closest rho g i → ind = [i] := by
  obtain ⟨m, h1, h2, h3⟩ := pyMinL_spec (rho.map fun r => |r - g|) (by simpa using h)
  refine ⟨(List.range rho.length).filter fun i => |rho.getD i 0 - g| = m, ?_, ?_, ?_⟩
  · unfold nearest
    rw [h1]
    rfl
  · intro i hi
    rw [List.mem_filter, List.mem_range] at hi
    exact hi.1
  · rintro i ⟨hi, hc⟩
    have g' : ∀ j, j < rho.length → rho.getD j 0 ∈ rho := by
      intro j hj
      rw [List.getD_eq_getElem?_getD, List.getElem?_eq_getElem hj]; exact List.getElem_mem hj
    have le : ∀ j, j < rho.length → m ≤ |rho.getD j 0 - g| := fun j hj => h3 _ (List.mem_map.mpr ⟨_, g' j hj, rfl⟩)
    have hm : |rho.getD i 0 - g| = m := by
      obtain ⟨r, hr, e⟩ := List.mem_map.mp h2
      obtain ⟨j, hj, rfl⟩ := List.getElem_of_mem hr
      by_cases hji : j = i
      · rw [← e, ← hji, List.getD_eq_getElem?_getD, List.getElem?_eq_getElem hj]; rfl
      · have := hc j hj hji
        rw [List.getD_eq_getElem?_getD (i := j), List.getElem?_eq_getElem hj, Option.getD_some, e] at this
        have := le i hi
        linarith
    have nd : ((List.range rho.length).filter fun i => |rho.getD i 0 - g| = m).Nodup := List.nodup_range.filter _
    have mem : ∀ j, j ∈ ((List.range rho.length).filter fun i => |rho.getD i 0 - g| = m) ↔ j = i := by
      intro j
      rw [List.mem_filter, List.mem_range, decide_eq_true_eq]
      constructor
      · rintro ⟨hj, e⟩
        by_contra hne
        have := hc j hj hne
        linarith
      · rintro rfl; exact ⟨hi, hm⟩
    generalize ((List.range rho.length).filter fun i => |rho.getD i 0 - g| = m) = l at nd mem
    cases l with
    | nil => have := (mem i).mpr rfl; simp at this
    | cons a l =>
      have ha := (mem a).mp (by simp)
      subst ha
      cases l with
      | nil => rfl
      | cons b l =>
        have hb := (mem b).mp (by simp)
        subst hb
        simp at nd

/-- The value of an iteration when it exists. -/
theorem radiusStep_ok (cosd : ℚ → ℚ) (t rho phi : List ℚ) (o : Orbit) (g : ℚ) (h : rho ≠ []) (h1 : t.length = rho.length)
    (h2 : phi.length = rho.length) : ∃ x, radiusStep cosd t rho phi o g = .ok (o.a * (1 - o.e ^ 2) / (1 + o.e * cosd x)) ∧
      ∀ i, Closest rho g i → x = phi.getD i 0 - o.w0 - o.wdot * t.getD i 0 := by
  obtain ⟨ind, e, b, c⟩ := nearest_ok rho g h
  have m : ∀ l : List ℚ, l.length = rho.length → medianAt l ind = .ok (median (ind.map fun i => l.getD i 0)) := by
    intro l hl
    unfold medianAt
    rw [if_pos]
    rw [List.all_eq_true]
    intro i hi
    have := b i hi
    simp; omega
  refine ⟨median (ind.map fun i => phi.getD i 0) - o.w0 - o.wdot * median (ind.map fun i => t.getD i 0), ?_, ?_⟩
  · unfold radiusStep
    rw [e]
    simp only [bind, Except.bind, m t h1, m phi h2]
    rfl
  · intro i hi
    rw [c i hi]
    have one : ∀ x : ℚ, median [x] = x := by intro x; simp [median]
    rw [List.map_singleton, List.map_singleton, one, one]

theorem ellipse_bounds (a e c : ℚ) (ha : 0 < a) (he : 0 ≤ e) (he1 : e < 1) (h1 : -1 ≤ c) (h2 : c ≤ 1) :
    a * (1 - e) ≤ a * (1 - e ^ 2) / (1 + e * c) ∧ a * (1 - e ^ 2) / (1 + e * c) ≤ a * (1 + e) ∧
      OnEllipse a e c (a * (1 - e ^ 2) / (1 + e * c)) := by
  have hp : 0 < 1 + e * c := by nlinarith
  refine ⟨?_, ?_, ?_⟩
  · rw [le_div_iff₀ hp]
    have : 0 ≤ a * ((1 - e) * (e * (1 - c))) := by
      apply mul_nonneg ha.le
      apply mul_nonneg (by linarith)
      exact mul_nonneg he (by linarith)
    nlinarith
  · rw [div_le_iff₀ hp]
    have : 0 ≤ a * ((1 + e) * (e * (1 + c))) := by
      apply mul_nonneg ha.le
      apply mul_nonneg (by linarith)
      exact mul_nonneg he (by linarith)
    nlinarith
  · unfold OnEllipse
    exact div_mul_cancel₀ _ hp.ne'

/-- One iteration, 0 in place of an error. -/
def stepD (cosd : ℚ → ℚ) (t rho phi : List ℚ) (o : Orbit) (g : ℚ) : ℚ :=
  match radiusStep cosd t rho phi o g with
  | .ok r => r
  | .error _ => 0

/-- The sequence of radii. -/
def iter (f : ℚ → ℚ) (g0 : ℚ) : Nat → ℚ
  | 0 => g0
  | n + 1 => f (iter f g0 n)

theorem radLoop_iter (cosd : ℚ → ℚ) (t rho phi : List ℚ) (o : Orbit) (tol : ℚ) (f : ℚ → ℚ) (g0 : ℚ)
    (hf : ∀ g, radiusStep cosd t rho phi o g = .ok (f g)) : ∀ (n k : Nat),
    (∀ j, j < k → tol < |iter f g0 (j + 1) - iter f g0 j|) →
    ∃ N, k ≤ N ∧ N ≤ k + n ∧ radLoop cosd t rho phi o tol n (iter f g0 k) (iter f g0 (k + 1)) = .ok (iter f g0 (N + 1)) ∧
      (|iter f g0 (N + 1) - iter f g0 N| ≤ tol ∨ N = k + n) ∧ ∀ j, j < N → tol < |iter f g0 (j + 1) - iter f g0 j| := by
  intro n
  induction n with
  | zero => intro k hk; exact ⟨k, le_refl _, by omega, rfl, Or.inr rfl, hk⟩
  | succ n ih =>
    intro k hk
    unfold radLoop
    by_cases h : tol < |iter f g0 (k + 1) - iter f g0 k|
    · rw [if_pos h, hf]
      obtain ⟨N, a, b, c, d, e⟩ := ih (k + 1) (by
        intro j hj
        rcases Nat.lt_succ_iff_lt_or_eq.mp hj with h' | rfl
        · exact hk j h'
        · exact h)
      refine ⟨N, by omega, by omega, c, ?_, e⟩
      rcases d with d | d
      · exact Or.inl d
      · right; omega
    · rw [if_neg h]
      exact ⟨k, le_refl _, by omega, rfl, Or.inl (not_lt.mp h), hk⟩

/-- **C86** (partial) For every profile, orbit, tolerance and limit: the radius is an element of the sequence that begins with
the apoapse distance and in which each radius is that of the orbit at the time and longitude of the row closest to the one
before; all elements are between peri- and apoapse distance; the first one that differs from the one before by no more than the
tolerance is returned.  Missing: if there is none up to the limit, the last one is returned, see `C86_oscillates_false`. -/
theorem C86_radius_partial (cosd : ℚ → ℚ) (hc : ∀ x, -1 ≤ cosd x ∧ cosd x ≤ 1) (t rho phi : List ℚ) (o : Orbit) (niter : Nat)
    (tol : ℚ) (h : rho ≠ []) (h1 : t.length = rho.length) (h2 : phi.length = rho.length) (ha : 0 < o.a) (he : 0 ≤ o.e)
    (he1 : o.e < 1) :
    ∃ (g : Nat → ℚ) (N : Nat), radConverge cosd t rho phi o niter tol = .ok (g (N + 1)) ∧ g 0 = o.a * (1 + o.e) ∧
      (∀ n i, Closest rho (g n) i → OnEllipse o.a o.e (cosd (phi.getD i 0 - o.w0 - o.wdot * t.getD i 0)) (g (n + 1))) ∧
      (∀ n, o.a * (1 - o.e) ≤ g n ∧ g n ≤ o.a * (1 + o.e)) ∧
      N ≤ niter ∧ (|g (N + 1) - g N| ≤ tol ∨ N = niter) ∧ ∀ n, n < N → tol < |g (n + 1) - g n| := by
  have hf : ∀ g, radiusStep cosd t rho phi o g = .ok (stepD cosd t rho phi o g) := by
    intro g
    obtain ⟨x, e, -⟩ := radiusStep_ok cosd t rho phi o g h h1 h2
    unfold stepD
    rw [e]
  obtain ⟨N, -, a2, a3, a4, a5⟩ := radLoop_iter cosd t rho phi o tol (stepD cosd t rho phi o) (o.a * (1 + o.e)) hf niter 0 (by omega)
  refine ⟨iter (stepD cosd t rho phi o) (o.a * (1 + o.e)), N, ?_, rfl, ?_, ?_, by omega, by simpa using a4, a5⟩
  · unfold radConverge
    simp only [hf, bind, Except.bind]
    exact a3
  · intro n i hi
    obtain ⟨x, e, k⟩ := radiusStep_ok cosd t rho phi o (iter (stepD cosd t rho phi o) (o.a * (1 + o.e)) n) h h1 h2
    have e' : iter (stepD cosd t rho phi o) (o.a * (1 + o.e)) (n + 1) = o.a * (1 - o.e ^ 2) / (1 + o.e * cosd x) := by
      have := (hf _).symm.trans e
      exact Except.ok.inj this
    rw [e', ← k i hi]
    exact (ellipse_bounds o.a o.e (cosd x) ha he he1 (hc x).1 (hc x).2).2.2
  · intro n
    cases n with
    | zero =>
      refine ⟨?_, le_refl _⟩
      show _ ≤ o.a * (1 + o.e)
      nlinarith
    | succ n =>
      obtain ⟨x, e, k⟩ := radiusStep_ok cosd t rho phi o (iter (stepD cosd t rho phi o) (o.a * (1 + o.e)) n) h h1 h2
      have e' : iter (stepD cosd t rho phi o) (o.a * (1 + o.e)) (n + 1) = o.a * (1 - o.e ^ 2) / (1 + o.e * cosd x) := by
        have := (hf _).symm.trans e
        exact Except.ok.inj this
      rw [e']
      obtain ⟨b1, b2, -⟩ := ellipse_bounds o.a o.e (cosd x) ha he he1 (hc x).1 (hc x).2
      exact ⟨b1, b2⟩

/-- A profile through an orbit with periapse 90 km, apoapse 110 km; all rows at longitude 90 degrees, where the cosine is 0. -/
example : radConverge (fun _ => 0) [0, 0, 0] [90, 100, 110] [90, 90, 90] ⟨100, 1 / 10, 0, 0⟩ 100 (1 / 1000) = .ok 99 := by
  decide +kernel

example : ∃ (g : Nat → ℚ) (N : Nat), radConverge (fun _ => 0) [0, 0, 0] [90, 100, 110] [90, 90, 90] ⟨100, 1 / 10, 0, 0⟩ 100 (1 / 1000) =
    .ok (g (N + 1)) ∧ N ≤ 100 := by
  obtain ⟨g, N, a, -, -, -, b, -⟩ := C86_radius_partial (fun _ => 0) (fun _ => by norm_num) [0, 0, 0] [90, 100, 110] [90, 90, 90]
    ⟨100, 1 / 10, 0, 0⟩ 100 (1 / 1000) (by decide) rfl rfl (by norm_num) (by norm_num) (by norm_num)
  exact ⟨g, N, a, b⟩

/-- **C86** For a circular edge the radius is the semimajor axis. -/
theorem C86_circular (cosd : ℚ → ℚ) (hc : ∀ x, -1 ≤ cosd x ∧ cosd x ≤ 1) (t rho phi : List ℚ) (a w0 wdot : ℚ) (niter : Nat)
    (tol : ℚ) (h : rho ≠ []) (h1 : t.length = rho.length) (h2 : phi.length = rho.length) (ha : 0 < a) :
    radConverge cosd t rho phi ⟨a, 0, w0, wdot⟩ niter tol = .ok a := by
  obtain ⟨g, N, e, -, -, b, -⟩ := C86_radius_partial cosd hc t rho phi ⟨a, 0, w0, wdot⟩ niter tol h h1 h2 ha (le_refl _) (by norm_num)
  rw [e]
  have := b (N + 1)
  simp only [sub_zero, add_zero, mul_one] at this
  rw [le_antisymm this.2 this.1]

example : radConverge (fun _ => 1) [0, 1] [87000, 88000] [10, 20] ⟨87342.77, 0, 0, 0⟩ 100 (1 / 1000) = .ok 87342.77 :=
  C86_circular _ (fun _ => by norm_num) _ _ _ _ _ _ _ _ (by decide) rfl rfl (by norm_num)

/-- **C86** is false of profiles in which the radii oscillate: after 100 iterations a radius is returned that is not that of the
orbit at the closest row; it is wrong by 2000 km, and no warning is given.  For every function with the values of the cosine at
0 and 180 degrees. -/
theorem C86_oscillates_false (cosd : ℚ → ℚ) (c0 : cosd 0 = 1) (c1 : cosd 180 = -1) :
    ∃ (t rho phi : List ℚ) (o : Orbit) (r : ℚ), radConverge cosd t rho phi o 100 (1 / 1000) = .ok r ∧ Closest rho r 0 ∧
      0 < o.a ∧ 0 ≤ o.e ∧ o.e < 1 ∧
      ∀ r', OnEllipse o.a o.e (cosd (phi.getD 0 0 - o.w0 - o.wdot * t.getD 0 0)) r' → r' - r = 2000 := by
  refine ⟨[0, 0], [99000, 101000], [180, 0], ⟨100000, 1 / 100, 0, 0⟩, 99000, ?_, ?_, by norm_num, by norm_num, by norm_num, ?_⟩
  · have n1 : nearest [99000, 101000] 101000 = .ok [1] := by decide +kernel
    have n2 : nearest [99000, 101000] 99000 = .ok [0] := by decide +kernel
    have m1 : medianAt [0, 0] [1] = .ok 0 := by decide +kernel
    have m2 : medianAt [0, 0] [0] = .ok 0 := by decide +kernel
    have p1 : medianAt [180, 0] [1] = .ok 0 := by decide +kernel
    have p2 : medianAt [180, 0] [0] = .ok 180 := by decide +kernel
    have s1 : radiusStep cosd [0, 0] [99000, 101000] [180, 0] ⟨100000, 1 / 100, 0, 0⟩ 101000 = .ok 99000 := by
      unfold radiusStep
      rw [n1]
      simp only [bind, Except.bind, m1, p1]
      rw [show (0 : ℚ) - 0 - 0 * 0 = 0 by norm_num, c0]
      show Except.ok _ = _
      norm_num
    have s2 : radiusStep cosd [0, 0] [99000, 101000] [180, 0] ⟨100000, 1 / 100, 0, 0⟩ 99000 = .ok 101000 := by
      unfold radiusStep
      rw [n2]
      simp only [bind, Except.bind, m2, p2]
      rw [show (180 : ℚ) - 0 - 0 * 0 = 180 by norm_num, c1]
      show Except.ok _ = _
      norm_num
    have loop : ∀ n, radLoop cosd [0, 0] [99000, 101000] [180, 0] ⟨100000, 1 / 100, 0, 0⟩ (1 / 1000) (2 * n) 101000 99000 = .ok 99000 := by
      intro n
      induction n with
      | zero => rfl
      | succ n ih =>
        rw [show 2 * (n + 1) = 2 * n + 1 + 1 by ring]
        unfold radLoop
        rw [if_pos (by norm_num), s2]
        show radLoop _ _ _ _ _ _ (2 * n + 1) 99000 101000 = _
        unfold radLoop
        rw [if_pos (by norm_num), s1]
        exact ih
    unfold radConverge
    rw [show (100000 : ℚ) * (1 + 1 / 100) = 101000 by norm_num]
    simp only [s1, bind, Except.bind]
    exact loop 50
  · refine ⟨by decide, ?_⟩
    intro j hj hne
    have : j = 1 := by simp at hj; omega
    subst this
    show |(99000 : ℚ) - 99000| < |101000 - 99000|
    norm_num
  · intro r' h
    unfold OnEllipse at h
    rw [show ([180, 0] : List ℚ).getD 0 0 - 0 - 0 * ([0, 0] : List ℚ).getD 0 0 = 180 by simp, c1] at h
    norm_num at h
    linarith

end Verif.Geo
