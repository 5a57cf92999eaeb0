import Verif.Props.C153

/-!
# C154: the curves, the legend and the markers of the figure of the grid

rss_ringoccs/tools/dtau_partsize.py.
-/
namespace Verif.Dtau
namespace Spec

/-- The greatest radius of a row: each has as many rows as there are slopes. -/
def owner (nq row : Nat) : Nat := row / nq

/-- The texts in the legend, in the order of the curves. -/
def legend (cs : List Curve) : List (List Char) := cs.filterMap Curve.label

end Spec
open Spec

theorem labels_length (lab : List (List Char)) (nq : Nat) : (labels lab nq).length = nq * lab.length := by
  unfold labels
  rw [flatMap_len _ nq (by simp), List.length_zipIdx, Nat.mul_comm]

theorem labels_at {lab : List (List Char)} {nq i : Nat} (h : i < nq * lab.length) :
    (labels lab nq).getD i ([], 0) = (lab.getD (i / nq) [], i / nq) := by
  have hq : 0 < nq := by
    rcases Nat.eq_zero_or_pos nq with rfl | h0
    · rw [Nat.zero_mul] at h; omega
    · exact h0
  have hd : i / nq < lab.length := Nat.div_lt_of_lt_mul h
  have hz : lab.zipIdx[i / nq]? = some (lab.getD (i / nq) [], i / nq) := by
    rw [List.getElem?_zipIdx, List.getD_eq_getElem?_getD, List.getElem?_eq_getElem hd]
    simp
  have h1 := flatMap_at (fun t : List Char × Nat => List.replicate nq t) nq (l := lab.zipIdx) (by simp) hz (Nat.mod_lt i hq)
  rw [Nat.mul_comm, Nat.div_add_mod, List.getElem?_replicate, if_pos (Nat.mod_lt i hq)] at h1
  rw [List.getD_eq_getElem?_getD, labels, h1]
  rfl

/-- **C154.** There is a curve for each row of the grid, in order, with the colour of its greatest radius. -/
theorem C154_colour (lab : List (List Char)) (nq : Nat) :
    (curves lab nq).map (fun c => (c.row, c.colour)) = (List.range (lab.length * nq)).map fun i => (i, owner nq i) := by
  unfold curves
  rw [List.map_map, Nat.mul_comm]
  apply List.map_congr_left
  intro i hi
  have := labels_at (lab := lab) (nq := nq) (i := i) (by rw [Nat.mul_comm]; exact List.mem_range.mp hi)
  simp only [Function.comp, this, owner]

/-- Two greatest radii and two slopes: the first two curves are of the first. -/
example : (curves [['3'], ['8']] 2).map Curve.colour = [0, 0, 1, 1] := by decide

theorem curve_label {lab : List (List Char)} {nq i : Nat} (h : i < nq * lab.length) (hd : lab.Nodup) (h2 : 2 ≤ lab.length) :
    ((curves lab nq)[i]?).map Curve.label = some (if i % nq = 0 then some (lab.getD (i / nq) []) else none) := by
  have hq : 0 < nq := by
    rcases Nat.eq_zero_or_pos nq with rfl | h0
    · rw [Nat.zero_mul] at h; omega
    · exact h0
  have hdiv : i / nq < lab.length := Nat.div_lt_of_lt_mul h
  unfold curves
  simp only [List.getElem?_map, List.getElem?_range h, Option.map_some, labels_at h, labels_length, Option.some.injEq]
  have inj : ∀ {a b : Nat}, a < lab.length → b < lab.length → (lab.getD a [] = lab.getD b [] ↔ a = b) := by
    intro a b ha hb
    rw [List.getD_eq_getElem?_getD, List.getD_eq_getElem?_getD, List.getElem?_eq_getElem ha, List.getElem?_eq_getElem hb]
    exact hd.getElem_inj_iff
  by_cases hi : i = 0
  · subst hi
    have hlast : nq * lab.length - 1 < nq * lab.length := by omega
    have hl : (nq * lab.length - 1) / nq = lab.length - 1 := by
      obtain ⟨m, hm⟩ : ∃ m, lab.length = m + 1 := ⟨lab.length - 1, by omega⟩
      rw [hm, Nat.mul_add, Nat.mul_one, Nat.add_sub_assoc hq, Nat.add_comm, Nat.add_mul_div_left _ _ hq, Nat.div_eq_of_lt (by omega)]
      omega
    rw [if_pos rfl, labels_at hlast, hl, if_pos, if_pos (Nat.zero_mod _)]
    simp only [Nat.zero_div, ne_eq]
    rw [inj (by omega) (by omega)]
    omega
  · rw [if_neg hi, labels_at (by omega)]
    simp only [ne_eq]
    by_cases hm : i % nq = 0
    · rw [if_pos hm, if_pos]
      rw [inj hdiv (Nat.div_lt_of_lt_mul (by omega))]
      obtain ⟨k, rfl⟩ := Nat.dvd_of_mod_eq_zero hm
      have hk : k ≠ 0 := by rintro rfl; simp at hi
      obtain ⟨k, rfl⟩ := Nat.exists_eq_succ_of_ne_zero hk
      rw [Nat.mul_div_cancel_left _ hq, Nat.succ_eq_add_one, Nat.mul_add, Nat.mul_one, Nat.add_sub_assoc hq, Nat.mul_add_div hq,
        Nat.div_eq_of_lt (by omega)]
      omega
    · rw [if_neg hm, if_neg]
      rw [not_not, inj hdiv (Nat.div_lt_of_lt_mul (by omega))]
      have e := Nat.div_add_mod i nq
      have hlt := Nat.mod_lt i hq
      have : i - 1 = nq * (i / nq) + (i % nq - 1) := by omega
      have h0 : (i % nq - 1) / nq = 0 := Nat.div_eq_of_lt (by omega)
      have h3 : (i - 1) / nq = i / nq := by rw [this, Nat.mul_add_div hq, h0, Nat.add_zero]
      exact h3.symm

/-- **C154.** (Full claim: every greatest radius is in the legend exactly once.)  With two or more different greatest radii the first curve of
each is in the legend under its name, and no other curve. -/
theorem C154_legend_partial {lab : List (List Char)} {nq i : Nat} (h : i < nq * lab.length) (hd : lab.Nodup) (h2 : 2 ≤ lab.length) :
    ∃ c, (curves lab nq)[i]? = some c ∧ ∀ t, c.label = some t ↔ i % nq = 0 ∧ lab[owner nq i]? = some t := by
  have hc := curve_label h hd h2
  cases hg : (curves lab nq)[i]? with
  | none => rw [hg] at hc; cases hc
  | some c =>
    rw [hg, Option.map_some, Option.some.injEq] at hc
    refine ⟨c, rfl, fun t => ?_⟩
    have hdiv : i / nq < lab.length := Nat.div_lt_of_lt_mul h
    rw [hc, owner, List.getD_eq_getElem?_getD, List.getElem?_eq_getElem hdiv]
    by_cases hm : i % nq = 0
    · simp [hm]
    · simp [hm]

/-- Three radii and two slopes. -/
example : legend (curves [['3'], ['8'], ['9']] 2) = [['3'], ['8'], ['9']] := by decide

/-- **C154.** With one greatest radius nothing is in the legend, whatever the number of slopes. -/
theorem C154_legend_false (t : List Char) (nq : Nat) : legend (curves [t] nq) = [] := by
  have key : ∀ i < nq, (labels [t] nq).getD i ([], 0) = (t, 0) := by
    intro i hi
    rw [labels_at (by simpa using hi), Nat.div_eq_of_lt hi]
    rfl
  unfold legend
  rw [List.filterMap_eq_nil_iff]
  intro c hc
  unfold curves at hc
  obtain ⟨i, hi, rfl⟩ := List.mem_map.mp hc
  have hi' : i < nq := by simpa using hi
  simp only [labels_length, List.length_singleton, Nat.mul_one]
  rw [key i hi', key _ (by split <;> omega)]
  simp

/-- **C154.** A radius that comes again last loses its first entry, too. -/
theorem C154_again_false : legend (curves [['3'], ['8'], ['3']] 1) = [['8'], ['3']] := by decide

/-- **C154.** Each slope is written once, beside the curve of that slope and of the first greatest radius. -/
theorem C154_slopes {nmax nq : Nat} (h : 0 < nmax) :
    slopeTexts nmax nq = (List.range nq).map (fun j => (j, j)) ∧ ∀ p ∈ slopeTexts nmax nq, owner nq p.1 = 0 ∧ p.1 % nq = p.2 := by
  have h1 : slopeTexts nmax nq = (List.range nq).map (fun j => (j, j)) := by
    unfold slopeTexts
    obtain ⟨m, rfl⟩ : ∃ m, nmax = m + 1 := ⟨nmax - 1, by omega⟩
    rw [Nat.mul_add, Nat.mul_one, Nat.add_comm, List.range_add, List.filterMap_append]
    have a : (List.range nq).filterMap (fun i => if i < nq then some (i, i) else none) = (List.range nq).map fun j => (j, j) := by
      rw [← List.filterMap_eq_map']
      apply List.filterMap_congr
      intro x hx
      rw [if_pos (List.mem_range.mp hx)]
    have b : ((List.range (nq * m)).map (nq + ·)).filterMap (fun i => if i < nq then some (i, i) else none) = [] := by
      rw [List.filterMap_eq_nil_iff]
      intro x hx
      obtain ⟨y, -, rfl⟩ := List.mem_map.mp hx
      rw [if_neg (by omega)]
    rw [a, b, List.append_nil]
  refine ⟨h1, fun p hp => ?_⟩
  rw [h1] at hp
  obtain ⟨j, hj, rfl⟩ := List.mem_map.mp hp
  have := List.mem_range.mp hj
  exact ⟨Nat.div_eq_of_lt this, Nat.mod_eq_of_lt this⟩

/-- Two radii and three slopes. -/
example : slopeTexts 2 3 = [(0, 0), (1, 1), (2, 2)] := (C154_slopes (by decide)).1

/-- **C154.** Every fiftieth point has a marker, from the first on. -/
theorem C154_markers {len j : Nat} : j ∈ markers len ↔ j < len ∧ 50 ∣ j := by
  unfold markers
  simp only [List.mem_map, List.mem_range]
  constructor
  · rintro ⟨a, ha, rfl⟩
    exact ⟨by omega, by omega⟩
  · rintro ⟨h1, h2⟩
    exact ⟨j / 50, by omega, by omega⟩

/-- The suggested 301 smallest radii. -/
example : markers 301 = [0, 50, 100, 150, 200, 250, 300] := by decide

end Verif.Dtau
