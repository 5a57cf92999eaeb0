import Verif.Spec.Geo
import Verif.Props.C81
import Mathlib.Tactic.Linarith
import Mathlib.Algebra.Order.Field.Basic

/-!
# C82: the index that splits a chord occultation
-/
namespace Verif.Geo
open Verif.Rsr Spec

theorem filter_range_one {p : Nat → Bool} {m N : Nat} (h : m < N) (hp : ∀ i, i < N → (p i = true ↔ i = m)) :
    (List.range N).filter p = [m] := by
  have hr : List.range N = List.range m ++ [m] ++ (List.range (N - (m + 1))).map (m + 1 + ·) := by
    rw [← List.range_succ, ← List.range_add]; congr 1; omega
  have a : (List.range m).filter p = [] := by
    rw [List.filter_eq_nil_iff]
    intro i hi
    rw [List.mem_range] at hi
    rw [hp i (by omega)]; omega
  have b : ((List.range (N - (m + 1))).map (m + 1 + ·)).filter p = [] := by
    rw [List.filter_eq_nil_iff]
    intro i hi
    rw [List.mem_map] at hi
    obtain ⟨j, hj, rfl⟩ := hi
    rw [List.mem_range] at hj
    rw [hp _ (by omega)]; omega
  rw [hr, List.filter_append, List.filter_append, a, b, List.filter_cons, if_pos ((hp m h).mpr rfl)]
  rfl

theorem filter_range_two {p : Nat → Bool} {m N : Nat} (h : m + 1 < N) (hp : ∀ i, i < N → (p i = true ↔ i = m ∨ i = m + 1)) :
    (List.range N).filter p = [m, m + 1] := by
  have hr : List.range N = List.range m ++ [m] ++ [m + 1] ++ (List.range (N - (m + 2))).map (m + 2 + ·) := by
    rw [← List.range_succ, ← List.range_succ, ← List.range_add]; congr 1; omega
  have a : (List.range m).filter p = [] := by
    rw [List.filter_eq_nil_iff]
    intro i hi
    rw [List.mem_range] at hi
    rw [hp i (by omega)]; omega
  have b : ((List.range (N - (m + 2))).map (m + 2 + ·)).filter p = [] := by
    rw [List.filter_eq_nil_iff]
    intro i hi
    rw [List.mem_map] at hi
    obtain ⟨j, hj, rfl⟩ := hi
    rw [List.mem_range] at hj
    rw [hp _ (by omega)]; omega
  rw [hr, List.filter_append, List.filter_append, List.filter_append, a, b, List.filter_cons,
    if_pos ((hp m (by omega)).mpr (Or.inl rfl)), List.filter_cons, if_pos ((hp _ h).mpr (Or.inr rfl))]
  rfl

theorem sgn_neg {x : ℚ} (h : x < 0) : sgn x = -1 := by unfold sgn; rw [if_pos h]

theorem sgn_pos {x : ℚ} (h : 0 < x) : sgn x = 1 := by unfold sgn; rw [if_neg (not_lt.mpr h.le), if_pos h]

theorem sgn_zero : sgn 0 = 0 := by unfold sgn; simp

/-- Signs of the velocities of a chord. -/
theorem chord_signs {rho : List ℚ} {m : Nat} (c : Chord rho m) {dt : ℚ} (hdt : 0 < dt) :
    (∀ i, i < m → sgn ((gradient rho dt).getD i 0) = -1) ∧
    (∀ i, m < i → i < rho.length → sgn ((gradient rho dt).getD i 0) = 1) ∧
    sgn ((gradient rho dt).getD m 0) = sgn (rho.getD (m + 1) 0 - rho.getD (m - 1) 0) := by
  obtain ⟨⟨h1, h2⟩, hf, hg⟩ := c
  refine ⟨fun i hi => ?_, fun i hi hn => ?_, ?_⟩
  · rw [gradient_getD _ _ _ (by omega)]
    by_cases h0 : i = 0
    · rw [if_pos h0]
      have := hf 0 (by omega)
      exact sgn_neg (div_neg_of_neg_of_pos (by linarith) hdt)
    · rw [if_neg h0, if_neg (by omega)]
      have a := hf i hi
      have b := hf (i - 1) (by omega)
      rw [Nat.sub_add_cancel (by omega)] at b
      exact sgn_neg (div_neg_of_neg_of_pos (by linarith) (by linarith))
  · rw [gradient_getD _ _ _ hn, if_neg (by omega)]
    have b := hg (i - 1) (by omega) (by omega)
    rw [Nat.sub_add_cancel (by omega)] at b
    by_cases h0 : i + 1 = rho.length
    · rw [if_pos h0]
      exact sgn_pos (div_pos (by linarith) hdt)
    · rw [if_neg h0]
      have a := hg i (by omega) (by omega)
      exact sgn_pos (div_pos (by linarith) (by linarith))
  · rw [gradient_getD _ _ _ (by omega), if_neg (by omega), if_neg (by omega)]
    rcases lt_trichotomy (rho.getD (m + 1) 0 - rho.getD (m - 1) 0) 0 with h | h | h
    · rw [sgn_neg h]; exact sgn_neg (div_neg_of_neg_of_pos h (by linarith))
    · rw [h, zero_div]
    · rw [sgn_pos h]; exact sgn_pos (div_pos h (by linarith))

theorem chord_changes {rho : List ℚ} {m : Nat} (c : Chord rho m) {dt : ℚ} (hdt : 0 < dt) :
    signChanges (gradient rho dt) =
      if rho.getD (m + 1) 0 < rho.getD (m - 1) 0 then [m]
      else if rho.getD (m - 1) 0 < rho.getD (m + 1) 0 then [m - 1] else [m - 1, m] := by
  obtain ⟨s1, s2, s3⟩ := chord_signs c hdt
  obtain ⟨h1, h2⟩ := c.inside
  unfold signChanges
  rw [gradient_length]
  have low : ∀ i, i + 1 < m → sgn ((gradient rho dt).getD (i + 1) 0) - sgn ((gradient rho dt).getD i 0) = 0 := by
    intro i hi; rw [s1 _ hi, s1 _ (by omega)]; rfl
  have high : ∀ i, m < i → i + 1 < rho.length → sgn ((gradient rho dt).getD (i + 1) 0) - sgn ((gradient rho dt).getD i 0) = 0 := by
    intro i hi hn; rw [s2 _ (by omega) hn, s2 _ hi (by omega)]; rfl
  rcases lt_trichotomy (rho.getD (m + 1) 0) (rho.getD (m - 1) 0) with h | h | h
  · rw [if_pos h]
    have s4 : rho.getD (m + 1) 0 - rho.getD (m - 1) 0 < 0 := by linarith
    rw [sgn_neg s4] at s3
    apply filter_range_one (by omega)
    intro i hi
    rw [decide_eq_true_eq]
    rcases lt_trichotomy i m with k | k | k
    · have : sgn ((gradient rho dt).getD (i + 1) 0) = -1 := by
        rcases Nat.lt_or_ge (i + 1) m with k2 | k2
        · exact s1 _ k2
        · have : i + 1 = m := by omega
          rw [this]; exact s3
      rw [this, s1 _ k]; omega
    · subst k
      rw [s2 (i + 1) (by omega) (by omega), s3]; omega
    · rw [high i k (by omega)]; omega
  · rw [if_neg (by linarith), if_neg (by linarith)]
    rw [h, sub_self, sgn_zero] at s3
    have e : m = (m - 1) + 1 := by omega
    have : [m - 1, m] = [m - 1, (m - 1) + 1] := by rw [← e]
    rw [this]
    apply filter_range_two (by omega)
    intro i hi
    rw [decide_eq_true_eq, ← e]
    rcases lt_trichotomy i m with k | k | k
    · rcases Nat.lt_or_ge (i + 1) m with k2 | k2
      · rw [low i k2]; omega
      · have e2 : i + 1 = m := by omega
        rw [e2, s3, s1 _ k]; omega
    · subst k
      rw [s2 (i + 1) (by omega) (by omega), s3]; omega
    · rw [high i k (by omega)]; omega
  · rw [if_neg (by linarith), if_pos h]
    have s4 : 0 < rho.getD (m + 1) 0 - rho.getD (m - 1) 0 := by linarith
    rw [sgn_pos s4] at s3
    apply filter_range_one (by omega)
    intro i hi
    rw [decide_eq_true_eq]
    rcases lt_trichotomy i m with k | k | k
    · rcases Nat.lt_or_ge (i + 1) m with k2 | k2
      · rw [low i k2]; omega
      · have e2 : i + 1 = m := by omega
        rw [e2, s3, s1 _ k]; omega
    · subst k
      rw [s2 (i + 1) (by omega) (by omega), s3]; omega
    · rw [high i k (by omega)]; omega

theorem pairwise_of_steps {r : ℚ → ℚ → Prop} (ht : ∀ a b c, r a b → r b c → r a c) (l : List ℚ)
    (h : ∀ i, i + 1 < l.length → r (l.getD i 0) (l.getD (i + 1) 0)) : l.Pairwise r := by
  rw [List.pairwise_iff_getElem]
  have key : ∀ d i, i + d + 1 < l.length → r (l.getD i 0) (l.getD (i + d + 1) 0) := by
    intro d
    induction d with
    | zero => intro i hi; exact h i hi
    | succ d ih => intro i hi; exact ht _ _ _ (ih i (by omega)) (h (i + d + 1) (by omega))
  intro i j hi hj hij
  have := key (j - i - 1) i (by omega)
  have e : i + (j - i - 1) + 1 = j := by omega
  rw [e] at this
  simpa [List.getD_eq_getElem?_getD, hi, hj] using this

theorem getD_take {l : List ℚ} {k i : Nat} (h : i < k) : (l.take k).getD i 0 = l.getD i 0 := by
  rw [List.getD_eq_getElem?_getD, List.getD_eq_getElem?_getD, List.getElem?_take_of_lt h]

theorem getD_drop {l : List ℚ} {k i : Nat} : (l.drop k).getD i 0 = l.getD (k + i) 0 := by
  rw [List.getD_eq_getElem?_getD, List.getD_eq_getElem?_getD, List.getElem?_drop]

theorem chord_parts {rho : List ℚ} {m : Nat} (c : Chord rho m) :
    Falling (rho.take (m + 1)) ∧ Growing (rho.drop (m + 1)) := by
  constructor
  · apply pairwise_of_steps (r := (· > ·)) (fun a b c h1 h2 => lt_trans h2 h1)
    intro i hi
    rw [List.length_take] at hi
    rw [getD_take (by omega), getD_take (by omega)]
    exact c.falls i (by omega)
  · apply pairwise_of_steps (r := (· < ·)) (fun a b c h1 h2 => lt_trans h1 h2)
    intro i hi
    rw [List.length_drop] at hi
    rw [getD_drop, getD_drop]
    exact c.grows _ (by omega) (by omega)

/-- **C82** (partial) For every chord occultation whose radius just after the least radius is greater than the one just before
it, the index separates ingress from egress.  Missing: all others, see `C82_late_false` and `C82_symmetric_false`. -/
theorem C82_split_partial (rho : List ℚ) (m : Nat) (dt : ℚ) (c : Chord rho m) (hdt : 0 < dt)
    (h : rho.getD (m - 1) 0 < rho.getD (m + 1) 0) :
    ∃ k, getChordInd (gradient rho dt) = .at k ∧ k = m + 1 ∧ Separates rho k := by
  refine ⟨m + 1, ?_, rfl, by omega, c.inside.2, Or.inl (chord_parts c)⟩
  have := c.inside.1
  unfold getChordInd
  rw [chord_changes c hdt, if_neg (by linarith), if_pos h]
  have e : m - 1 + 2 = m + 1 := by omega
  simp only [e]

/-- A chord. -/
theorem chord_demo : Chord [10, 5, 2, 6, 9] 2 where
  inside := by decide
  falls := by
    intro i hi
    have : i = 0 ∨ i = 1 := by omega
    rcases this with rfl | rfl <;> decide +kernel
  grows := by
    intro i hi hn
    have : i = 2 ∨ i = 3 := by simp at hn; omega
    rcases this with rfl | rfl <;> decide +kernel

example : ∃ k, getChordInd (gradient [10, 5, 2, 6, 9] 1) = .at k ∧ k = 2 + 1 ∧ Separates [10, 5, 2, 6, 9] k :=
  C82_split_partial _ 2 1 chord_demo one_pos (by decide +kernel)

/-- **C82** is false for every chord occultation whose radius just after the least one is smaller than the one just before: the
index is one too large, and the first part contains a point of the egress. -/
theorem C82_late_false (rho : List ℚ) (m : Nat) (dt : ℚ) (c : Chord rho m) (hdt : 0 < dt)
    (h : rho.getD (m + 1) 0 < rho.getD (m - 1) 0) :
    getChordInd (gradient rho dt) = .at (m + 2) ∧ ¬ Separates rho (m + 2) := by
  obtain ⟨h1, h2⟩ := c.inside
  constructor
  · unfold getChordInd
    rw [chord_changes c hdt, if_pos h]
  · rintro ⟨-, h3, hc⟩
    have a := c.falls (m - 1) (by omega)
    have b := c.grows m (le_refl _) (by omega)
    rw [Nat.sub_add_cancel h1] at a
    have gt : ∀ {r : ℚ → ℚ → Prop}, (rho.take (m + 2)).Pairwise r → r (rho.getD (m - 1) 0) (rho.getD m 0) ∧ r (rho.getD m 0) (rho.getD (m + 1) 0) := by
      intro r hr
      rw [List.pairwise_iff_getElem] at hr
      have x := hr (m - 1) m (by simp; omega) (by simp; omega) (by omega)
      have y := hr m (m + 1) (by simp; omega) (by simp; omega) (by omega)
      rw [List.getElem_take, List.getElem_take] at x y
      simp only [List.getD_eq_getElem?_getD]
      rw [List.getElem?_eq_getElem (by omega), List.getElem?_eq_getElem (by omega), List.getElem?_eq_getElem (by omega)]
      exact ⟨x, y⟩
    rcases hc with ⟨f, -⟩ | ⟨f, -⟩
    · have := (gt f).2; linarith
    · have := (gt f).1; linarith

example : getChordInd (gradient [10, 5, 2, 3, 9] 1) = .at 4 := by decide +kernel

/-- **C82** is false for every chord occultation with equal radii just before and just after the least one: there is no index but
an array of two, and the direction of the profile cannot be determined. -/
theorem C82_symmetric_false (rho : List ℚ) (m : Nat) (dt : ℚ) (c : Chord rho m) (hdt : 0 < dt)
    (h : rho.getD (m + 1) 0 = rho.getD (m - 1) 0) (spm atmos : List ℚ) (cols : List (List ℚ)) :
    getChordInd (gradient rho dt) = .many [m - 1, m] ∧
    getProfileDir { rho := rho, rhoDot := gradient rho dt, spm := spm, atmos := atmos, cols := cols } = .error .value := by
  obtain ⟨h1, h2⟩ := c.inside
  have e : getChordInd (gradient rho dt) = .many [m - 1, m] := by
    unfold getChordInd
    rw [chord_changes c hdt, if_neg (by linarith), if_neg (by linarith)]
  refine ⟨e, ?_⟩
  unfold getProfileDir verifyChord
  have a := c.falls 0 (by omega)
  have b := c.grows (rho.length - 2) (by omega) (by omega)
  have e2 : rho.length - 2 + 1 = rho.length - 1 := by omega
  rw [e2] at b
  rw [zero_add] at a
  rw [if_neg (by simp only; omega)]
  simp only
  rw [if_neg (by rintro ⟨-, x⟩; linarith), if_neg (by rintro ⟨x, -⟩; linarith), e]

example : getProfileDir (Geom.mk [10, 5, 2, 5, 9] (gradient [10, 5, 2, 5, 9] 1) [0, 1, 2, 3, 4] [] []) = .error .value := by decide +kernel

end Verif.Geo
