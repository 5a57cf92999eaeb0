import Verif.Model.PolyOrder
import Verif.Spec.PolyOrder
import Verif.Props.C94

/-!
# C106: the order of the polynomial for the frequency offset
-/
namespace Verif.Cal
open Verif.Rsr Verif.Geo Verif.Cal.Spec

theorem squares_nonneg (c xs ys : List ℚ) : 0 ≤ squares c xs ys := by
  unfold squares
  refine List.sum_nonneg fun z hz => ?_
  obtain ⟨i, hi, rfl⟩ := List.mem_iff_getElem.mp hz
  rw [List.getElem_zipWith]
  exact sq_nonneg _

theorem least_unique {k : Nat} {xs ys : List ℚ} {s t : ℚ} (hs : IsLeast k xs ys s) (ht : IsLeast k xs ys t) : s = t := by
  obtain ⟨⟨c, c1, c2⟩, h⟩ := hs
  obtain ⟨⟨d, d1, d2⟩, h'⟩ := ht
  exact le_antisymm (d2 ▸ h d d1) (c2 ▸ h' c c1)

theorem least_of {pf : Nat → List ℚ → List ℚ → List ℚ} (hpf : LeastSquares pf) {xs ys : List ℚ} (hl : xs.length = ys.length) (k : Nat) :
    IsLeast k xs ys (residue (pf k xs ys) xs ys) := by
  rw [residue_eq]
  exact ⟨⟨_, (hpf k xs ys hl).1, rfl⟩, (hpf k xs ys hl).2⟩

theorem squares_zero (c xs ys : List ℚ) : squares (0 :: c) xs ys = squares c xs ys := by
  unfold squares
  simp only [poly_cons, zero_mul, zero_add]

theorem least_mono {k : Nat} {xs ys : List ℚ} {s t : ℚ} (hs : IsLeast k xs ys s) (ht : IsLeast (k + 1) xs ys t) : t ≤ s := by
  obtain ⟨⟨c, c1, c2⟩, -⟩ := hs
  have := ht.2 (0 :: c) (by simp [c1])
  rwa [squares_zero, c2] at this

theorem least_nonneg {k : Nat} {xs ys : List ℚ} {s : ℚ} (hs : IsLeast k xs ys s) : 0 ≤ s := by
  obtain ⟨⟨c, -, c2⟩, -⟩ := hs
  exact c2 ▸ squares_nonneg c xs ys

theorem fAbove_iff {pf : Nat → List ℚ → List ℚ → List ℚ} (hpf : LeastSquares pf) {xs ys : List ℚ} (hl : xs.length = ys.length) (k : Nat) :
    fAbove (residue (pf k xs ys) xs ys) (residue (pf (k + 1) xs ys) xs ys) (ys.length - (k + 2)) = true ↔ Better k xs ys := by
  have l1 := least_of hpf hl k
  have l2 := least_of hpf hl (k + 1)
  have hm := least_mono l1 l2
  have h0 := least_nonneg l2
  generalize residue (pf k xs ys) xs ys = s1 at *
  generalize residue (pf (k + 1) xs ys) xs ys = s2 at *
  have hb : Better k xs ys ↔ k + 2 < xs.length ∧ s2 / (xs.length - (k + 2)) < s1 - s2 := by
    constructor
    · rintro ⟨t1, t2, a1, a2, a3⟩
      rw [least_unique l1 a1, least_unique l2 a2]
      exact a3
    · exact fun h => ⟨s1, s2, l1, l2, h⟩
  rw [hb, hl]
  unfold fAbove
  have cast : (((ys.length : ℤ) - (k + 2) : ℤ) : ℚ) = (ys.length : ℚ) - (k + 2) := by push_cast; ring
  split
  · rename_i h
    simp only [Bool.false_eq_true, false_iff, not_and]
    intro h'
    omega
  · rename_i hd
    split
    · rename_i h2
      subst h2
      rw [decide_eq_true_iff, zero_div]
      constructor
      · rintro (h | h)
        · exact ⟨by omega, by linarith [h.2]⟩
        · linarith [h.2]
      · rintro ⟨a, b⟩
        exact .inl ⟨by omega, by linarith⟩
    · rename_i h2
      have p2 : 0 < s2 := lt_of_le_of_ne h0 (Ne.symm h2)
      rw [decide_eq_true_iff, cast]
      rcases lt_or_ge (k + 2) ys.length with h | h
      · have hp : (0 : ℚ) < ys.length - (k + 2) := by
          have : ((k + 2 : ℕ) : ℚ) < ys.length := by exact_mod_cast h
          push_cast at this
          linarith
        rw [lt_div_iff₀ (div_pos p2 hp), one_mul]
        exact ⟨fun x => ⟨h, x⟩, fun x => x.2⟩
      · have hn : (ys.length : ℚ) - (k + 2) ≤ 0 := by
          have : (ys.length : ℚ) ≤ ((k + 2 : ℕ) : ℚ) := by exact_mod_cast h
          push_cast at this
          linarith
        constructor
        · intro hx
          exfalso
          have : (s1 - s2) / (s2 / ((ys.length : ℚ) - (k + 2))) ≤ 0 :=
            div_nonpos_of_nonneg_of_nonpos (by linarith) (div_nonpos_of_nonneg_of_nonpos p2.le hn)
          linarith
        · exact fun hx => absurd hx.1 (by omega)

theorem orderLoop_spec {pf : Nat → List ℚ → List ℚ → List ℚ} (hpf : LeastSquares pf) {xs ys : List ℚ} (hl : xs.length = ys.length)
    (top fuel k : Nat) (hf : top ≤ fuel + k) (hk : k ≤ top) :
    k ≤ orderLoop pf xs ys top fuel k ∧ orderLoop pf xs ys top fuel k ≤ top ∧
      (∀ j, k ≤ j → j < orderLoop pf xs ys top fuel k → Better j xs ys) ∧
      (orderLoop pf xs ys top fuel k < top → ¬ Better (orderLoop pf xs ys top fuel k) xs ys) := by
  induction fuel generalizing k with
  | zero => exact ⟨le_rfl, hk, fun j a b => absurd b (by simp [orderLoop]; omega), fun h => absurd h (by simp [orderLoop]; omega)⟩
  | succ fuel ih =>
    unfold orderLoop
    split
    · rename_i hc
      obtain ⟨a, b, c, d⟩ := ih (k + 1) (by omega) (by omega)
      refine ⟨by omega, b, fun j j1 j2 => ?_, d⟩
      rcases Nat.eq_or_lt_of_le j1 with rfl | j1
      · exact (fAbove_iff hpf hl _).mp hc.1
      · exact c j j1 j2
    · rename_i hc
      refine ⟨le_rfl, hk, fun j a b => by omega, fun h hb => hc ⟨(fAbove_iff hpf hl _).mpr hb, h⟩⟩

/-- The order is the first one, from 1 to the maximum, that the next order does not improve; it is at most the number of data less
two. -/
theorem C106_order {pf : Nat → List ℚ → List ℚ → List ℚ} (hpf : LeastSquares pf) {xs ys : List ℚ} (hl : xs.length = ys.length)
    (h0 : xs ≠ []) (maxOrder : Nat) : ∃ r, polyOrder pf xs ys maxOrder = .ok r ∧ 1 ≤ r ∧ r ≤ max 1 maxOrder ∧ r ≤ max 1 (xs.length - 2) ∧
      (∀ j, 1 ≤ j → j < r → Better j xs ys) ∧ (r < maxOrder → ¬ Better r xs ys) := by
  unfold polyOrder
  rw [if_neg (by simp [h0, hl])]
  simp only
  set m := if ys.length < maxOrder then ys.length - 1 else maxOrder with hm
  set top := if m < 1 then 1 else m with htop
  have h1 : 1 ≤ top := by rw [htop]; split <;> omega
  obtain ⟨a, b, c, d⟩ := orderLoop_spec hpf hl top top 1 (by omega) h1
  generalize orderLoop pf xs ys top top 1 = r at *
  have hmm : m ≤ maxOrder := by rw [hm]; split <;> omega
  have ht : top ≤ max 1 maxOrder := by rw [htop]; split <;> omega
  have h3 : r ≤ max 1 (xs.length - 2) := by
    by_contra hc
    obtain ⟨_, _, _, _, x, _⟩ := c (r - 1) (by omega) (by omega)
    omega
  refine ⟨r, rfl, a, by omega, h3, c, fun h => ?_⟩
  by_cases ht' : r < top
  · exact d ht'
  · rintro ⟨_, _, _, _, x, _⟩
    have : r = top := by omega
    rw [htop, hm] at this
    split_ifs at this <;> omega

/-- Data on a polynomial of order `d` are fitted with no higher order. -/
theorem C106_exact {pf : Nat → List ℚ → List ℚ → List ℚ} (hpf : LeastSquares pf) {xs ys : List ℚ} (hl : xs.length = ys.length)
    (h0 : xs ≠ []) {maxOrder d r : Nat} (hd : 1 ≤ d) {c : List ℚ} (hc : c.length = d + 1)
    (he : squares c xs ys = 0) (hr : polyOrder pf xs ys maxOrder = .ok r) : r ≤ d := by
  obtain ⟨r', e, -, -, -, hb, -⟩ := C106_order hpf hl h0 maxOrder
  rw [e] at hr
  cases hr
  by_contra hlt
  obtain ⟨s1, s2, l1, l2, -, h⟩ := hb d hd (by omega)
  have e1 : s1 ≤ 0 := he ▸ l1.2 c hc
  have e2 := least_nonneg l2
  have : (0 : ℚ) ≤ s2 / (xs.length - (d + 2)) := by
    obtain ⟨_, _, _, _, hk, _⟩ := hb d hd (by omega)
    have : ((d + 2 : ℕ) : ℚ) < xs.length := by exact_mod_cast hk
    push_cast at this
    exact div_nonneg e2 (by linarith)
  linarith

/-- At least four data on a parabola that is not a straight line are fitted with order 2. -/
theorem C106_quadratic {pf : Nat → List ℚ → List ℚ → List ℚ} (hpf : LeastSquares pf) {xs ys : List ℚ} (hl : xs.length = ys.length)
    (h4 : 4 ≤ xs.length) {maxOrder : Nat} (hm : 2 ≤ maxOrder) {c : List ℚ} (hc : c.length = 3)
    (he : squares c xs ys = 0) (hn : ∀ l : List ℚ, l.length = 2 → squares l xs ys ≠ 0) : polyOrder pf xs ys maxOrder = .ok 2 := by
  have h0 : xs ≠ [] := by
    rintro rfl
    simp at h4
  obtain ⟨r, e, h1, h2, -, -, h5⟩ := C106_order hpf hl h0 maxOrder
  have := C106_exact hpf hl h0 (d := 2) (by norm_num) hc he e
  rw [e]
  congr 1
  by_contra hne
  have hr : r = 1 := by omega
  subst hr
  apply h5 (by omega)
  have l1 := least_of hpf hl 1
  have l2 := least_of hpf hl 2
  refine ⟨_, _, l1, l2, by omega, ?_⟩
  obtain ⟨a, a1, a2⟩ := l1.1
  have p1 : residue (pf 1 xs ys) xs ys ≠ 0 := a2 ▸ hn a a1
  have p1' := lt_of_le_of_ne (least_nonneg l1) (Ne.symm p1)
  have p2 : residue (pf 2 xs ys) xs ys = 0 := le_antisymm (he ▸ l2.2 c hc) (least_nonneg l2)
  rw [p2, zero_div]
  linarith

example : ∃ pf, LeastSquares pf ∧ polyOrder pf [0, 1, 2, 3] [0, 1, 4, 9] 4 = .ok 2 := by
  obtain ⟨pf, hpf⟩ := leastSquares_exists
  refine ⟨pf, hpf, C106_quadratic (xs := [0, 1, 2, 3]) (ys := [0, 1, 4, 9]) (maxOrder := 4) hpf rfl (by decide) (by decide)
    (c := [1, 0, 0]) rfl (by decide +kernel) ?_⟩
  intro l hl h
  obtain ⟨a, b, rfl⟩ : ∃ a b, l = [a, b] := by
    match l, hl with
    | [a, b], _ => exact ⟨a, b, rfl⟩
  simp [squares, poly, Finset.sum_range_succ] at h
  nlinarith [sq_nonneg (14 * a + 6 * b - 36), sq_nonneg (b + 1)]

/-- A cubic is fitted with a straight line if the data are symmetric: order 2 is no better than order 1, and order 3, which fits
exactly, is not tried. -/
theorem C106_odd_false : ∃ xs ys : List ℚ, xs.length = ys.length ∧ xs.length = 5 ∧ squares [1, 0, 0, 0] xs ys = 0 ∧
    (∀ l : List ℚ, l.length = 2 → 14 < squares l xs ys) ∧ ∀ pf, LeastSquares pf → polyOrder pf xs ys 9 = .ok 1 := by
  have low : ∀ a b c : ℚ, 72 / 5 ≤ squares [a, b, c] [-2, -1, 0, 1, 2] [-8, -1, 0, 1, 8] := by
    intro a b c
    simp [squares, poly, Finset.sum_range_succ]
    nlinarith [sq_nonneg (b - 17 / 5), sq_nonneg (4 * a + c), sq_nonneg (a + c), sq_nonneg c]
  refine ⟨[-2, -1, 0, 1, 2], [-8, -1, 0, 1, 8], rfl, rfl, by decide +kernel, fun l hl => ?_, fun pf hpf => ?_⟩
  · obtain ⟨a, b, rfl⟩ : ∃ a b, l = [a, b] := by
      match l, hl with
      | [a, b], _ => exact ⟨a, b, rfl⟩
    rw [← squares_zero]
    linarith [low 0 a b]
  · obtain ⟨r, e, h1, -, -, h4, -⟩ := C106_order hpf (xs := [-2, -1, 0, 1, 2]) (ys := [-8, -1, 0, 1, 8]) rfl (by decide) 9
    rw [e]
    congr 1
    by_contra hne
    obtain ⟨s1, s2, l1, ⟨⟨c, c1, c2⟩, -⟩, -, h⟩ := h4 1 le_rfl (by omega)
    have e1 : s1 ≤ 72 / 5 := (l1.2 [17 / 5, 0] rfl).trans (by decide +kernel)
    obtain ⟨x, y, z, rfl⟩ : ∃ x y z, c = [x, y, z] := by
      match c, c1 with
      | [x, y, z], _ => exact ⟨x, y, z, rfl⟩
    have e2 := low x y z
    rw [c2] at e2
    norm_num at h
    linarith

end Verif.Cal
