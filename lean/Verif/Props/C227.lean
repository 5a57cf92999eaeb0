import Verif.Model.Comparisons
import Mathlib.Tactic.Linarith
import Mathlib.Tactic.Ring
import Mathlib.Tactic.FieldSimp
import Mathlib.Tactic.NormNum

/-!
# The curves of a comparison of results (C227, C228, C229)
-/
namespace Verif.Cmp
open Verif.Rsr

/-- Two phases that differ by whole turns. -/
def Spec.SamePhase (x y : ℚ) : Prop := ∃ n : ℤ, x - y = 360 * n

/-- The first radius of a list from `low` on, with its number. -/
def Spec.FirstFrom (r : List ℚ) (low : ℚ) (i : Nat) : Prop := (∃ x, r[i]? = some x ∧ low ≤ x) ∧ ∀ j x, j < i → r[j]? = some x → x < low

theorem wrap_range (x : ℚ) : -180 ≤ pmod x 360 - 180 ∧ pmod x 360 - 180 < 180 := by
  have h1 := Int.floor_le (x / 360)
  have h2 := Int.lt_floor_add_one (x / 360)
  have e : x / 360 * 360 = x := by ring
  unfold pmod
  constructor <;> linarith

theorem wrap_same (x : ℚ) : Spec.SamePhase (pmod (x + 360 + 180) 360 - 180) x := by
  refine ⟨1 - ⌊(x + 360 + 180) / 360⌋, ?_⟩
  unfold pmod
  push_cast
  ring

theorem firstFrom_spec {r : List ℚ} {low : ℚ} {i : Nat} (h : firstFrom r low = .ok i) : Spec.FirstFrom r low i := by
  unfold firstFrom at h
  split at h
  · rename_i k hk
    cases h
    rw [List.findIdx?_eq_some_iff_getElem] at hk
    obtain ⟨hl, hp, hq⟩ := hk
    refine ⟨⟨r[i], List.getElem?_eq_getElem hl, by simpa using hp⟩, ?_⟩
    intro j x hj hx
    obtain ⟨hjl, rfl⟩ := List.getElem?_eq_some_iff.mp hx
    simpa using hq j hj
  · cases h

theorem item_spec {l : List ℚ} {i : Nat} {x : ℚ} (h : item l i = .ok x) : l[i]? = some x := by
  unfold item at h
  split at h
  · rename_i y hy; cases h; exact hy
  · cases h

/-- Phases are drawn from -180 up to 180 degrees, and all those of a result are turned by the same angle. -/
theorem C227_turn (a : Ask) (r : Result) (y : List ℚ) (hp : a.phase = true) (h : yvals a r = .ok y) :
    (∀ v ∈ y, -180 ≤ v ∧ v < 180) ∧ y.length = r.col.length ∧
    ∃ d, ∀ (k : Nat) (v w : ℚ), y[k]? = some v → r.col[k]? = some w → Spec.SamePhase v (w + d) := by
  simp only [yvals, hp, if_true, bind, Except.bind, pure, Except.pure] at h
  split at h
  · cases h
  · rename_i d hd
    cases h
    refine ⟨?_, ?_, ?_⟩
    · intro v hv
      obtain ⟨x, -, rfl⟩ := List.mem_map.mp hv
      exact wrap_range _
    · rw [List.length_map, yOffset]
      split <;> simp
    · refine ⟨(if r.fromFile then a.yOff + a.yOff else a.yOff) + d, fun k v w hv hw => ?_⟩
      simp only [List.getElem?_map, Option.map_eq_some_iff] at hv
      obtain ⟨x, hx, rfl⟩ := hv
      have : x = w + (if r.fromFile then a.yOff + a.yOff else a.yOff) := by
        unfold yOffset at hx
        by_cases hf : r.fromFile = true
        · simp only [hf, if_true, List.getElem?_map, hw, Option.map_some, Option.some.injEq] at hx ⊢
          rw [← hx]; ring
        · simp only [hf, if_false, List.getElem?_map, hw, Option.map_some, Option.some.injEq, Bool.false_eq_true] at hx ⊢
          exact hx.symm
      obtain ⟨n, hn⟩ := wrap_same (x + d)
      exact ⟨n, by rw [← hn, this]; ring⟩

/-- Adjusted phases agree, at the first point from the lower end of the range on, with the phase of the archive at its first point from there on. -/
theorem C227_adjusted (a : Ask) (r : Result) (y rp yp : List ℚ) (hp : a.phase = true) (ha : a.adjust = true) (hf : a.pds = some (rp, yp))
    (h : yvals a r = .ok y) : ∃ l lp v u, Spec.FirstFrom r.rkm a.rlow l ∧ Spec.FirstFrom rp a.rlow lp ∧ y[l]? = some v ∧ yp[lp]? = some u ∧
      Spec.SamePhase v u := by
  simp only [yvals, hp, if_true, bind, Except.bind, pure, Except.pure] at h
  split at h
  · cases h
  · rename_i d hd
    cases h
    simp only [dyMatch, ha, if_true, hf, bind, Except.bind, pure, Except.pure] at hd
    split at hd
    · cases hd
    rename_i lp hlp
    split at hd
    · cases hd
    rename_i l hl
    split at hd
    · cases hd
    rename_i u hu
    split at hd
    · cases hd
    rename_i v hv
    cases hd
    refine ⟨l, lp, pmod (v + (u - v) + 360 + 180) 360 - 180, u, firstFrom_spec hl, firstFrom_spec hlp, ?_, item_spec hu, ?_⟩
    · rw [List.getElem?_map, item_spec hv, Option.map_some]
    · have := wrap_same (v + (u - v))
      rwa [show v + (u - v) = u by ring] at this ⊢

/-- A result of three points whose second is the first of the range. -/
example : yvals ⟨true, true, 0, 0, 100, some ([90, 99, 101], [0, 0, 170])⟩ ⟨[50, 100, 150], [20, 160, 175], false⟩ = .ok [30, 170, -175] := by decide +kernel

/-- The value of result `i` is drawn with the offset of the figure and `i` times that between results. -/
def Spec.Offset (a : Ask) (i : Nat) (r : Result) (y : List ℚ) : Prop := y = r.col.map fun v => v + a.yOff + i * a.dyOff

/-- The optical depths of results that do not come from a file, or of all results without an offset of the figure. -/
theorem C228_offset_partial (a : Ask) (i : Nat) (r : Result) (hp : a.phase = false) (h : r.fromFile = false ∨ a.yOff = 0) :
    ∃ y, curve a i r = .ok y ∧ Spec.Offset a i r y := by
  have e : yvals a r = .ok (r.col.map fun v => v + a.yOff) := by
    simp only [yvals, hp, Bool.false_eq_true, if_false, yOffset]
    rcases h with h | h
    · simp [h]
    · simp [h]
  refine ⟨_, by simp only [curve, e, bind, Except.bind, pure, Except.pure]; rfl, ?_⟩
  unfold Spec.Offset
  by_cases hi : i = 0
  · subst hi; simp
  · simp [hi]
    intro x _
    ring

example : curve ⟨false, false, 1, 10, 0, none⟩ 2 ⟨[1, 2], [3, 4], false⟩ = .ok [24, 25] := by decide +kernel

/-- Results that come from a file have the offset of the figure twice. -/
theorem C228_offset_false : ∃ (a : Ask) (i : Nat) (r : Result) (y : List ℚ), a.phase = false ∧ curve a i r = .ok y ∧ ¬ Spec.Offset a i r y :=
  ⟨⟨false, false, 1, 0, 0, none⟩, 0, ⟨[1], [3], true⟩, [5], rfl, by decide +kernel, by unfold Spec.Offset; decide +kernel⟩

/-- The curves are inside the limits of the figure. -/
def Spec.Inside (lim : ℚ × ℚ) (cs : List (List ℚ)) : Prop := ∀ c ∈ cs, ∀ v ∈ c, lim.1 ≤ v ∧ v ≤ lim.2

theorem le_foldl_max (t : List ℚ) (x : ℚ) : x ≤ t.foldl max x ∧ ∀ v ∈ t, v ≤ t.foldl max x := by
  induction t generalizing x with
  | nil => simp
  | cons a t ih =>
    obtain ⟨h1, h2⟩ := ih (max x a)
    rw [List.foldl_cons]
    refine ⟨le_trans (le_max_left _ _) h1, fun v hv => ?_⟩
    rcases List.mem_cons.mp hv with rfl | hv
    · exact le_trans (le_max_right _ _) h1
    · exact h2 v hv

theorem foldl_min_le (t : List ℚ) (x : ℚ) : t.foldl min x ≤ x ∧ ∀ v ∈ t, t.foldl min x ≤ v := by
  induction t generalizing x with
  | nil => simp
  | cons a t ih =>
    obtain ⟨h1, h2⟩ := ih (min x a)
    rw [List.foldl_cons]
    refine ⟨le_trans h1 (min_le_left _ _), fun v hv => ?_⟩
    rcases List.mem_cons.mp hv with rfl | hv
    · exact le_trans h1 (min_le_right _ _)
    · exact h2 v hv

/-- A single result, other than one of optical depths below -0.05, is inside the limits. -/
theorem C229_inside_partial (a : Ask) (r : Result) (cs : List (List ℚ)) (lim : ℚ × ℚ) (h : plotAll a [r] = .ok (cs, lim))
    (ht : a.phase = false → ∀ c ∈ cs, ∀ v ∈ c, -0.05 ≤ v) : Spec.Inside lim cs := by
  simp only [plotAll, List.zipIdx_cons, List.zipIdx_nil, List.mapM_cons, List.mapM_nil, bind, Except.bind, pure, Except.pure, curve,
    List.getLast?_singleton] at h
  cases hy : yvals a r with
  | error e => simp [hy] at h
  | ok y =>
    simp only [hy, if_true, List.length_singleton, Nat.sub_self] at h
    by_cases hpa : (a.phase && !a.adjust) = true
    · simp only [limits, hpa, if_true, Except.ok.injEq, Prod.mk.injEq] at h
      obtain ⟨rfl, rfl⟩ := h
      intro c hc v hv
      rw [List.mem_singleton] at hc
      subst hc
      have hp : a.phase = true := by
        cases hh : a.phase <;> simp [hh] at hpa ⊢
      have := (C227_turn a r c hp hy).1 v hv
      exact ⟨this.1, this.2.le⟩
    · simp only [limits, hpa, Bool.false_eq_true, if_false, Nat.cast_zero, zero_mul, add_zero, List.map_id', bind, Except.bind, pure, Except.pure] at h
      cases y with
      | nil => simp [npMax] at h
      | cons x t =>
        simp only [npMax, npMin, Except.ok.injEq, Prod.mk.injEq] at h
        obtain ⟨rfl, rfl⟩ := h
        intro c hc v hv
        have hm : v ≤ t.foldl max x ∧ t.foldl min x ≤ v := by
          rw [List.mem_singleton] at hc
          subst hc
          rcases List.mem_cons.mp hv with rfl | hv
          · exact ⟨(le_foldl_max t v).1, (foldl_min_le t v).1⟩
          · exact ⟨(le_foldl_max t x).2 v hv, (foldl_min_le t x).2 v hv⟩
        constructor
        · dsimp only
          cases hp : a.phase with
          | false =>
            simp only [Bool.false_eq_true, if_false]
            exact ht hp c hc v hv
          | true =>
            simp only [if_true]
            split <;> norm_num <;> linarith [hm.2]
        · dsimp only
          split <;> norm_num <;> linarith [hm.1]

example : plotAll ⟨false, false, 0, 0, 0, none⟩ [⟨[1, 2], [3, 1], false⟩] = .ok ([[3, 1]], (-0.05, 3.6)) := by decide +kernel

/-- With several results only the last one determines the limits. -/
theorem C229_inside_false : ∃ (a : Ask) (rs : List Result) (cs : List (List ℚ)) (lim : ℚ × ℚ), plotAll a rs = .ok (cs, lim) ∧
    (∀ c ∈ cs, ∀ v ∈ c, 0 ≤ v) ∧ ¬ Spec.Inside lim cs :=
  ⟨⟨false, false, 0, 0, 0, none⟩, [⟨[1], [3], false⟩, ⟨[1], [1], false⟩], [[3], [1]], (-0.05, 1.2), by decide +kernel, by decide +kernel,
    fun H => absurd (H [3] (by decide +kernel) 3 (by decide +kernel)).2 (by decide +kernel)⟩

end Verif.Cmp
