import Verif.Props.C83

/-!
# C84: removal of blocked times, split of chords
-/
namespace Verif.Geo
open Verif.Rsr Spec

theorem maskList_rows (p : Nat → Bool) : ∀ (l : List ℚ),
    maskList ((List.range l.length).map p) l = rows ((List.range l.length).filter p) l := by
  intro l
  have gen : ∀ (l : List ℚ) (k : Nat) (f : Nat → ℚ), (∀ i, i < l.length → f (k + i) = l.getD i 0) →
      maskList ((List.range' k l.length).map p) l = ((List.range' k l.length).filter p).map f := by
    intro l
    induction l with
    | nil => intro k f _; rfl
    | cons x xs ih =>
      intro k f hf
      have h0 := hf 0 (by simp)
      rw [add_zero] at h0
      have hs := ih (k + 1) f (fun i hi => by
        have := hf (i + 1) (by simpa using hi)
        rw [show k + 1 + i = k + (i + 1) by omega, this]; rfl)
      rw [List.length_cons, List.range'_succ, List.map_cons, List.filter_cons]
      unfold maskList at hs ⊢
      rw [List.zip_cons_cons, List.filter_cons]
      by_cases hp : p k = true
      · rw [if_pos hp, if_pos hp, List.map_cons, hs, List.map_cons, h0]; rfl
      · rw [if_neg hp, if_neg hp, hs]
  have := gen l 0 (fun i => l.getD i 0) (fun i _ => by rw [zero_add])
  rw [List.range_eq_range']
  exact this

/-- The rows that are not blocked. -/
def freeIdx (oet atmos : List ℚ) : List Nat := (List.range oet.length).filter fun i => !decide (oet.getD i 0 ∈ atmos)

theorem mask_eq (oet atmos : List ℚ) : (oet.map fun t => !decide (t ∈ atmos)) =
    (List.range oet.length).map fun i => !decide (oet.getD i 0 ∈ atmos) := by
  apply List.ext_getElem
  · simp
  · intro i h1 h2
    rw [List.length_map] at h1
    rw [List.getElem_map, List.getElem_map, List.getElem_range, List.getD_eq_getElem?_getD, List.getElem?_eq_getElem h1]
    rfl

theorem removeBlocked_ok (oet atmos ret phi rho : List ℚ) (h1 : ret.length = oet.length) (h2 : phi.length = oet.length)
    (h3 : rho.length = oet.length) : removeBlocked oet atmos ret phi rho =
      .ok ⟨rows (freeIdx oet atmos) ret, rows (freeIdx oet atmos) oet, rows (freeIdx oet atmos) phi, rows (freeIdx oet atmos) rho⟩ := by
  unfold removeBlocked
  rw [mask_eq]
  have m : ∀ l : List ℚ, l.length = oet.length →
      npMask ((List.range oet.length).map fun i => !decide (oet.getD i 0 ∈ atmos)) l = .ok (rows (freeIdx oet atmos) l) := by
    intro l hl
    unfold npMask freeIdx
    rw [if_pos (by simp [hl]), ← hl, maskList_rows]
  simp only [m ret h1, m oet rfl, m phi h2, m rho h3]
  rfl

/-- **C84** (partial) For all arrays of one length and all lists of blocked times, exactly the rows whose time is on the list
are removed from all four arrays, in order.  Missing: that the blocked times are on the list, see `C84_inexact_false`. -/
theorem C84_blocked_partial (oet atmos ret phi rho : List ℚ) (h1 : ret.length = oet.length) (h2 : phi.length = oet.length)
    (h3 : rho.length = oet.length) :
    ∃ idx, removeBlocked oet atmos ret phi rho = .ok ⟨rows idx ret, rows idx oet, rows idx phi, rows idx rho⟩ ∧
      idx.Pairwise (· < ·) ∧ ∀ i, i ∈ idx ↔ i < oet.length ∧ oet.getD i 0 ∉ atmos := by
  refine ⟨_, removeBlocked_ok oet atmos ret phi rho h1 h2 h3, ?_, ?_⟩
  · exact List.pairwise_lt_range.filter _
  · intro i
    unfold freeIdx
    simp [List.mem_filter]

example : removeBlocked [0, 1, 2] [1] [10, 11, 12] [20, 21, 22] [30, 31, 32] = .ok ⟨[10, 12], [0, 2], [20, 22], [30, 32]⟩ := by
  decide +kernel

/-- **C84** is false as soon as the times change on their way through SPICE: if the list of blocked times comes from times that
were each moved by less than the spacing of the observation, however little, nothing is removed. -/
theorem C84_inexact_false (oet blocked ret phi rho : List ℚ) (conv : ℚ → ℚ) (ε : ℚ) (h1 : ret.length = oet.length)
    (h2 : phi.length = oet.length) (h3 : rho.length = oet.length) (hb : ∀ t ∈ blocked, t ∈ oet)
    (hsep : ∀ t ∈ oet, ∀ t' ∈ oet, t ≠ t' → ε ≤ |t - t'|)
    (hconv : ∀ t ∈ blocked, 0 < |conv t - t| ∧ |conv t - t| < ε) :
    removeBlocked oet (blocked.map conv) ret phi rho = .ok ⟨ret, oet, phi, rho⟩ := by
  have idx : freeIdx oet (blocked.map conv) = List.range oet.length := by
    unfold freeIdx
    rw [List.filter_eq_self]
    intro i hi
    rw [List.mem_range] at hi
    simp only [Bool.not_eq_true', decide_eq_false_iff_not]
    intro hm
    rw [List.mem_map] at hm
    obtain ⟨t, ht, e⟩ := hm
    obtain ⟨c1, c2⟩ := hconv t ht
    have hm : oet.getD i 0 ∈ oet := by
      rw [List.getD_eq_getElem?_getD, List.getElem?_eq_getElem hi]; exact List.getElem_mem hi
    rw [e] at c1 c2
    have hne : oet.getD i 0 ≠ t := by
      intro h; rw [h, sub_self, abs_zero] at c1; exact lt_irrefl _ c1
    have := hsep _ hm t (hb t ht) hne
    linarith
  rw [removeBlocked_ok oet _ ret phi rho h1 h2 h3, idx]
  have all : ∀ l : List ℚ, l.length = oet.length → rows (List.range oet.length) l = l := by
    intro l hl
    unfold rows
    apply List.ext_getElem
    · simp [hl]
    · intro i a b
      rw [List.getElem_map, List.getElem_range, List.getD_eq_getElem?_getD, List.getElem?_eq_getElem b]; rfl
  rw [all ret h1, all oet rfl, all phi h2, all rho h3]

/-- A conversion that is off by 10⁻⁸ s. -/
example : removeBlocked [0, 1, 2] ([1].map (· + 1 / 10 ^ 8)) [10, 11, 12] [20, 21, 22] [30, 31, 32] =
    .ok ⟨[10, 11, 12], [0, 1, 2], [20, 21, 22], [30, 31, 32]⟩ :=
  C84_inexact_false _ [1] _ _ _ (· + 1 / 10 ^ 8) 1 rfl rfl rfl (by decide +kernel) (by decide +kernel) (by decide +kernel)

theorem rows_take (idx : List Nat) (l : List ℚ) (k : Nat) (h : ∀ i ∈ idx, i < k) : rows idx (l.take k) = rows idx l := by
  unfold rows
  apply List.map_congr_left
  intro i hi
  exact getD_take (h i hi)

theorem rows_drop (idx : List Nat) (l : List ℚ) (k : Nat) : rows idx (l.drop k) = rows (idx.map (k + ·)) l := by
  unfold rows
  rw [List.map_map]
  apply List.map_congr_left
  intro i _
  exact getD_drop

/-- **C84** For every chord and every index at which it is split, the two parts consist of the free rows before and after the
index: none is lost, none occurs twice, and the first part is the ingress. -/
theorem C84_split (ret oet atmos phi rho : List ℚ) (m k : Nat) (c : Chord rho m) (h1 : ret.length = rho.length)
    (h2 : phi.length = rho.length) (h3 : oet.length = rho.length) :
    ∃ ing egr, splitChordArr ret oet atmos phi rho k false = .ok ⟨rows ing ret, rows ing oet, rows ing phi, rows ing rho⟩ ∧
      splitChordArr ret oet atmos phi rho k true = .ok ⟨rows egr ret, rows egr oet, rows egr phi, rows egr rho⟩ ∧
      (ing ++ egr).Pairwise (· < ·) ∧
      (∀ i, i ∈ ing ↔ i < k ∧ i < oet.length ∧ oet.getD i 0 ∉ atmos) ∧
      (∀ i, i ∈ egr ↔ k ≤ i ∧ i < oet.length ∧ oet.getD i 0 ∉ atmos) := by
  obtain ⟨hm1, hm2⟩ := c.inside
  have a := c.falls 0 (by omega)
  have b := c.grows (rho.length - 2) (by omega) (by omega)
  have e2 : rho.length - 2 + 1 = rho.length - 1 := by omega
  rw [e2] at b
  rw [zero_add] at a
  have d1 : rho.getD 1 0 - rho.getD 0 0 < 0 := by linarith
  have mi : ∀ i, i ∈ freeIdx (oet.take k) atmos ↔ i < k ∧ i < oet.length ∧ oet.getD i 0 ∉ atmos := by
    intro i
    unfold freeIdx
    simp only [List.mem_filter, List.mem_range, List.length_take, Bool.not_eq_true', decide_eq_false_iff_not]
    constructor
    · rintro ⟨x, y⟩
      rw [getD_take (by omega)] at y
      exact ⟨by omega, by omega, y⟩
    · rintro ⟨x, y, z⟩
      rw [getD_take x]
      exact ⟨by omega, z⟩
  have me : ∀ i, i ∈ (freeIdx (oet.drop k) atmos).map (k + ·) ↔ k ≤ i ∧ i < oet.length ∧ oet.getD i 0 ∉ atmos := by
    intro i
    unfold freeIdx
    simp only [List.mem_map, List.mem_filter, List.mem_range, List.length_drop, Bool.not_eq_true', decide_eq_false_iff_not]
    constructor
    · rintro ⟨j, ⟨x, y⟩, rfl⟩
      rw [getD_drop] at y
      exact ⟨by omega, by omega, y⟩
    · rintro ⟨x, y, z⟩
      refine ⟨i - k, ⟨by omega, ?_⟩, by omega⟩
      rw [getD_drop, Nat.add_sub_cancel' x]
      exact z
  have split : ∀ w : Bool, splitChordArr ret oet atmos phi rho k w =
      if w then removeBlocked (oet.drop k) atmos (ret.drop k) (phi.drop k) (rho.drop k)
      else removeBlocked (oet.take k) atmos (ret.take k) (phi.take k) (rho.take k) := by
    intro w
    unfold splitChordArr
    rw [if_neg (by omega)]
    simp only
    rw [if_neg (by rintro (⟨-, x⟩ | ⟨x, -⟩) <;> linarith)]
    cases w
    · have hh : ¬ ((rho.getD 1 0 - rho.getD 0 0 < 0) = (false = true)) := by
        intro h; rw [h] at d1; exact Bool.noConfusion d1
      simp only [if_neg hh]; rfl
    · have hh : (rho.getD 1 0 - rho.getD 0 0 < 0) = (true = true) := by
        rw [eq_true d1]; simp
      simp only [hh, if_true]
  refine ⟨freeIdx (oet.take k) atmos, (freeIdx (oet.drop k) atmos).map (k + ·), ?_, ?_, ?_, mi, me⟩
  · rw [split]
    show removeBlocked (oet.take k) atmos (ret.take k) (phi.take k) (rho.take k) = _
    rw [removeBlocked_ok _ _ _ _ _ (by simp; omega) (by simp; omega) (by simp; omega)]
    have lt : ∀ i ∈ freeIdx (oet.take k) atmos, i < k := fun i hi => ((mi i).mp hi).1
    rw [rows_take _ _ _ lt, rows_take _ _ _ lt, rows_take _ _ _ lt, rows_take _ _ _ lt]
  · rw [split]
    show removeBlocked (oet.drop k) atmos (ret.drop k) (phi.drop k) (rho.drop k) = _
    rw [removeBlocked_ok _ _ _ _ _ (by simp; omega) (by simp; omega) (by simp; omega)]
    rw [rows_drop, rows_drop, rows_drop, rows_drop]
  · rw [List.pairwise_append]
    refine ⟨List.pairwise_lt_range.filter _, ?_, ?_⟩
    · rw [List.pairwise_map]
      exact (List.pairwise_lt_range.filter _).imp (fun h => by omega)
    · intro i hi j hj
      have x := (mi i).mp hi
      have y := (me j).mp hj
      omega

example : splitChordArr [20, 21, 22, 23, 24] [0, 1, 2, 3, 4] [1] [30, 31, 32, 33, 34] [10, 5, 2, 6, 9] 3 false =
    .ok ⟨[20, 22], [0, 2], [30, 32], [10, 2]⟩ := by decide +kernel

example : ∃ ing egr : List Nat, (ing ++ egr).Pairwise (· < ·) ∧
    splitChordArr [20, 21, 22, 23, 24] [0, 1, 2, 3, 4] [1] [30, 31, 32, 33, 34] [10, 5, 2, 6, 9] 3 false =
      .ok ⟨rows ing [20, 21, 22, 23, 24], rows ing [0, 1, 2, 3, 4], rows ing [30, 31, 32, 33, 34], rows ing [10, 5, 2, 6, 9]⟩ := by
  obtain ⟨i, e, h, -, p, -⟩ := C84_split [20, 21, 22, 23, 24] [0, 1, 2, 3, 4] [1] [30, 31, 32, 33, 34] [10, 5, 2, 6, 9] 2 3
    chord_demo rfl rfl rfl
  exact ⟨i, e, p, h⟩

end Verif.Geo
