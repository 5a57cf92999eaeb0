import Verif.Spec.Poly
import Verif.Proofs.Formula
import Mathlib.Tactic.Linarith

/-!
# C27, C28: interpolation of the Newton phases
-/
namespace Verif
open Spec

/-- **C27** The evaluation is a quartic, at `x` for the left sample and `-x` for the right. -/
theorem C27_eval {N : Num ℝ ℂ} (hN : N.IsExact) (c : ℝ × ℝ × ℝ × ℝ × ℝ) (x : ℝ) :
    deg4Eval N c x = (quartic c x, quartic c (-x)) := by
  simp only [deg4Eval, hN.add, hN.mul, hN.sub, quartic, Prod.mk.injEq]
  constructor <;> ring

/-- **C27** The quartic takes the five sampled values at the five nodes. -/
theorem C27_nodes {N : Num ℝ ℂ} (hN : N.IsExact) (i0 i1 i2 i3 i4 : ℝ) :
    let c := deg4Interp N i0 i1 i2 i3 i4
    quartic c (-1/2) = i0 ∧ quartic c (-1/4) = i1 ∧ quartic c 0 = i2 ∧ quartic c (1/4) = i3 ∧
      quartic c (1/2) = i4 := by
  simp only [deg4Interp, hN.add, hN.mul, hN.sub, hN.div, hN.lit, quartic]
  push_cast
  refine ⟨?_, ?_, ?_, ?_, ?_⟩ <;> ring

/-- **C27** It is the only quartic that does, so polynomial phases of degree at most 4 are
reproduced exactly. -/
theorem C27_unique {N : Num ℝ ℂ} (hN : N.IsExact) (a : ℝ × ℝ × ℝ × ℝ × ℝ) :
    deg4Interp N (quartic a (-1/2)) (quartic a (-1/4)) (quartic a 0) (quartic a (1/4))
      (quartic a (1/2)) = a := by
  obtain ⟨a0, a1, a2, a3, a4⟩ := a
  simp only [deg4Interp, hN.add, hN.mul, hN.sub, hN.div, hN.lit, quartic, Prod.mk.injEq]
  push_cast
  refine ⟨?_, ?_, ?_, ?_, ?_⟩ <;> ring

/-- **C27** The sample `j * shift` left of the centre is at `-j/4` in these units. -/
theorem C27_scale {dx : ℝ} (hdx : dx ≠ 0) {shift : Nat} (hs : shift ≠ 0) (j : ℝ) :
    -(j * shift * dx) * (1 / (4 * dx * shift)) = -j / 4 := by
  have : (shift : ℝ) ≠ 0 := by exact_mod_cast hs
  field_simp

/-- Not a polynomial: samples 1, 0, 0, 0, 0 still give 1 at the leftmost node. -/
example : (deg4Eval realNum (deg4Interp realNum 1 0 0 0 0) (-1/2)).1 = 1 := by
  rw [C27_eval realNum_exact]
  exact (C27_nodes realNum_exact 1 0 0 0 0).1

/-- Entry `i` of `rows[0] + q rows[1] + q² rows[2] + ...`. -/
def combAt (q : ℚ) : List (List ℚ) → Nat → ℚ
  | [], _ => 0
  | r :: rs, i => r.getD i 0 + q * combAt q rs i

theorem dotRow_go_eq {N : Num ℝ ℂ} (hN : N.IsExact) : ∀ (row : List ℚ) (z : List ℝ) (acc : ℝ),
    row.length = z.length → dotRow.go N acc row z =
      acc + ∑ i ∈ Finset.range z.length, (row.getD i 0 : ℝ) * z.getD i 0
  | [], [], acc, _ => by simp [dotRow.go]
  | c :: cs, y :: ys, acc, h => by
    rw [dotRow.go, dotRow_go_eq hN cs ys _ (by simpa using h), List.length_cons,
      Finset.sum_range_succ']
    simp only [hN.add, hN.mul, hN.lit, List.getD_cons_succ, List.getD_cons_zero]
    ring

theorem dotRow_eq {N : Num ℝ ℂ} (hN : N.IsExact) (row : List ℚ) (z : List ℝ)
    (h : row.length = z.length) : dotRow N row z =
      ∑ i ∈ Finset.range z.length, (row.getD i 0 : ℝ) * z.getD i 0 := by
  match row, z, h with
  | [], [], _ => simp [dotRow, hN.lit]
  | c :: cs, y :: ys, h =>
    rw [dotRow, dotRow_go_eq hN cs ys _ (by simpa using h), List.length_cons,
      Finset.sum_range_succ']
    simp only [hN.mul, hN.lit, List.getD_cons_succ, List.getD_cons_zero]
    ring

theorem nest_eq {N : Num ℝ ℂ} (hN : N.IsExact) (q : ℚ) (z : List ℝ) : ∀ rows : List (List ℚ),
    (∀ r ∈ rows, r.length = z.length) → nest N (q : ℝ) (rows.map fun r => dotRow N r z) =
      ∑ i ∈ Finset.range z.length, (combAt q rows i : ℝ) * z.getD i 0
  | [], _ => by simp [nest, combAt, hN.lit]
  | [r], h => by simp [nest, combAt, dotRow_eq hN r z (h r (by simp))]
  | r :: d :: rs, h => by
    have ih := nest_eq hN q z (d :: rs) fun r' hr => h r' (by simp [hr])
    rw [List.map_cons] at ih
    rw [List.map_cons, List.map_cons, nest, ih, dotRow_eq hN r z (h r (by simp)), hN.add, hN.mul,
      Finset.mul_sum, ← Finset.sum_add_distrib]
    refine Finset.sum_congr rfl fun i _ => ?_
    rw [show combAt q (r :: d :: rs) i = r.getD i 0 + q * combAt q (d :: rs) i from rfl]
    push_cast; ring

/-- How far entry `i` of the interpolation matrix at node `j` is from that of exact
interpolation (zero for exact coefficients). -/
def residual (rows : List (List ℚ)) (half j i : Nat) : ℚ :=
  let q : ℚ := -(j + 1) / (2 * half)
  let d : ℚ := if i = j then 1 else 0
  |q * q * combAt (q * q) (evens rows.tail) i - d| / 2 + |q * combAt (q * q) (evens rows) i + d / 2|

theorem evens_mapIdx {α β : Type} : ∀ (l : List α) (f : Nat → α → β), (∀ i a, f (i + 2) a = f i a) →
    evens (l.mapIdx f) = (evens l).map (f 0)
  | [], f, _ => rfl
  | [a], f, _ => by simp [evens]
  | a :: b :: l, f, h => by
    have e : (fun i => f (i + 1 + 1)) = f := funext fun i => funext fun a => h i a
    rw [List.mapIdx_cons, List.mapIdx_cons, e, evens, evens, evens_mapIdx l f h]
    rfl

theorem interp_error {N : Num ℝ ℂ} (hN : N.IsExact) {rows : List (List ℚ)} {half : Nat} {ε : ℚ}
    (pairs : List (ℝ × ℝ)) (hlen : pairs.length = half)
    (hr : ∀ r ∈ evens rows, r.length = half) (hr' : ∀ r ∈ evens rows.tail, r.length = half)
    (j : Nat) (hj : j < pairs.length)
    (hres : ∀ i, i < half → residual rows half j i ≤ ε) :
    let v := interpPsi N (interpCoeffs N rows pairs) (-((j : ℝ) + 1) / (2 * half))
    |v.1 - pairs[j].1| ≤ ε * absSum pairs ∧ |v.2 - pairs[j].2| ≤ ε * absSum pairs := by
  have he : evens (interpCoeffs N rows pairs) =
      (evens rows).map fun r => dotRow N r (pairs.map fun p => N.sub p.2 p.1) := by
    rw [interpCoeffs, evens_mapIdx _ _ fun i a => by rw [Nat.add_mod_right]]
    rfl
  have ho : evens (interpCoeffs N rows pairs).tail = (evens rows.tail).map fun r =>
      dotRow N r (pairs.map fun p => N.mul (N.add p.2 p.1) (N.lit (1/2))) := by
    cases rows with
    | nil => rfl
    | cons a l =>
      rw [interpCoeffs, List.mapIdx_cons, List.tail_cons, List.tail_cons,
        evens_mapIdx _ _ fun i a => by rw [show i + 2 + 1 = i + 1 + 2 by omega, Nat.add_mod_right]]
      rfl
  subst hlen
  set n := pairs.length with hn
  set l : Nat → ℝ := fun i => (pairs.getD i (0, 0)).1 with hl
  set r : Nat → ℝ := fun i => (pairs.getD i (0, 0)).2 with hrr
  set q : ℚ := -(j + 1) / (2 * n) with hq
  set E : Nat → ℝ := fun i => ((q * q * combAt (q * q) (evens rows.tail) i : ℚ) : ℝ) with hE
  set O : Nat → ℝ := fun i => ((q * combAt (q * q) (evens rows) i : ℚ) : ℝ) with hO
  have hx : (-((j : ℝ) + 1) / (2 * n)) = (q : ℝ) := by rw [hq]; push_cast; ring
  have hxx : (q : ℝ) * q = ((q * q : ℚ) : ℝ) := by push_cast; ring
  have hd : (pairs.map fun p => N.sub p.2 p.1).length = n := by simp [hn]
  have hm : (pairs.map fun p => N.mul (N.add p.2 p.1) (N.lit (1/2))).length = n := by simp [hn]
  have hdv : ∀ i, i < n → (pairs.map fun p => N.sub p.2 p.1).getD i 0 = r i - l i := fun i hi => by
    have hi : i < pairs.length := hi
    simp [hl, hrr, List.getD_eq_getElem?_getD, hi, hN.sub]
  have hmv : ∀ i, i < n → (pairs.map fun p => N.mul (N.add p.2 p.1) (N.lit (1/2))).getD i 0 =
      (r i + l i) / 2 := fun i hi => by
    have hi : i < pairs.length := hi
    simp [hl, hrr, List.getD_eq_getElem?_getD, hi, hN.add, hN.mul, hN.lit]; ring
  have hodd : (q : ℝ) * nest N ((q : ℝ) * q) (evens (interpCoeffs N rows pairs)) =
      ∑ i ∈ Finset.range n, O i * (r i - l i) := by
    rw [he, hxx, nest_eq hN _ _ _ (fun x hx => (hr x hx).trans hd.symm), hd, Finset.mul_sum]
    refine Finset.sum_congr rfl fun i hi => ?_
    rw [hdv i (Finset.mem_range.1 hi), hO]; push_cast; ring
  have heven : (q : ℝ) * q * nest N ((q : ℝ) * q) (evens (interpCoeffs N rows pairs).tail) =
      ∑ i ∈ Finset.range n, E i * ((r i + l i) / 2) := by
    rw [ho, hxx, nest_eq hN _ _ _ (fun x hx => (hr' x hx).trans hm.symm), hm, Finset.mul_sum]
    refine Finset.sum_congr rfl fun i hi => ?_
    rw [hmv i (Finset.mem_range.1 hi), hE]; push_cast; ring
  have hL : ∀ f : Nat → ℝ, f j = ∑ i ∈ Finset.range n, (if i = j then 1 else 0) * f i := fun f => by
    simp [hj]
  have hpj : pairs[j].1 = l j ∧ pairs[j].2 = r j := by
    have hi : j < pairs.length := hj
    simp [hl, hrr, List.getD_eq_getElem?_getD, hi]
  have habs : absSum pairs = ∑ i ∈ Finset.range n, (|l i| + |r i|) := by
    have : ∀ ps : List (ℝ × ℝ), absSum ps = ∑ i ∈ Finset.range ps.length,
        (|(ps.getD i (0, 0)).1| + |(ps.getD i (0, 0)).2|) := by
      intro ps
      induction ps with
      | nil => simp [absSum]
      | cons p ps ih =>
        rw [List.length_cons, Finset.sum_range_succ']
        simp only [List.getD_cons_succ, List.getD_cons_zero]
        rw [← ih]; simp [absSum, add_comm]
    exact this pairs
  have bound : ∀ i ∈ Finset.range n, ∀ σ : ℝ, |σ| = 1 →
      |(E i - if i = j then 1 else 0) * ((r i + l i) / 2) +
        σ * ((O i + (if i = j then 1 else 0) / 2) * (r i - l i))| ≤ ε * (|l i| + |r i|) := by
    intro i hi σ hσ
    have h0 := hres i (Finset.mem_range.1 hi)
    have h1 : |E i - if i = j then 1 else 0| / 2 + |O i + (if i = j then 1 else 0) / 2| ≤ (ε : ℝ) := by
      have := (Rat.cast_le (K := ℝ)).2 h0
      simp only [residual, ← hq] at this
      refine le_trans (le_of_eq ?_) this
      simp only [hE, hO]
      push_cast
      split_ifs <;> simp
    calc _ ≤ |(E i - if i = j then 1 else 0) * ((r i + l i) / 2)| +
          |σ * ((O i + (if i = j then 1 else 0) / 2) * (r i - l i))| := abs_add_le _ _
      _ = |E i - if i = j then 1 else 0| / 2 * |r i + l i| +
          |O i + (if i = j then 1 else 0) / 2| * |r i - l i| := by
        rw [abs_mul, abs_mul, abs_mul, hσ, abs_div, abs_two]; ring
      _ ≤ |E i - if i = j then 1 else 0| / 2 * (|l i| + |r i|) +
          |O i + (if i = j then 1 else 0) / 2| * (|l i| + |r i|) := by
        have := abs_add_le (r i) (l i)
        have h4 := abs_sub (r i) (l i)
        gcongr <;> linarith
      _ = (|E i - if i = j then 1 else 0| / 2 + |O i + (if i = j then 1 else 0) / 2|) *
          (|l i| + |r i|) := by ring
      _ ≤ _ := by gcongr
  have fin : ∀ σ : ℝ, |σ| = 1 → ∀ u : ℝ,
      u = ∑ i ∈ Finset.range n, ((E i - if i = j then 1 else 0) * ((r i + l i) / 2) +
        σ * ((O i + (if i = j then 1 else 0) / 2) * (r i - l i))) → |u| ≤ ε * absSum pairs := by
    intro σ hσ u hu
    rw [hu, habs, Finset.mul_sum]
    exact (Finset.abs_sum_le_sum_abs _ _).trans (Finset.sum_le_sum fun i hi => bound i hi σ hσ)
  intro v
  simp only [v, interpPsi, hx, hN.mul, hN.add, hN.sub, hodd, heven, hpj.1, hpj.2]
  refine ⟨fin 1 (by simp) _ ?_, fin (-1) (by simp) _ ?_⟩
  · rw [hL l, ← Finset.sum_add_distrib, ← Finset.sum_sub_distrib]
    exact Finset.sum_congr rfl fun i _ => by ring
  · rw [hL r, ← Finset.sum_sub_distrib, ← Finset.sum_sub_distrib]
    exact Finset.sum_congr rfl fun i _ => by ring

/-- **C28** Newton8: at the node `j+1` steps left (right) of the centre the interpolated phase
is the sampled one, up to the rounding of the 32 decimal constants. -/
theorem C28_newton8 {N : Num ℝ ℂ} (hN : N.IsExact) (pairs : List (ℝ × ℝ)) (hlen : pairs.length = 4)
    (j : Nat) (hj : j < 4) :
    let v := interpPsi N (interpCoeffs N rows8 pairs) (-((j : ℝ) + 1) / 8)
    |v.1 - pairs[j].1| ≤ 1 / 10 ^ 20 * absSum pairs ∧
    |v.2 - pairs[j].2| ≤ 1 / 10 ^ 20 * absSum pairs := by
  have := interp_error hN (rows := rows8) (ε := 1 / 10 ^ 20) pairs hlen (by decide +kernel)
    (by decide +kernel) j (by omega)
    (fun i hi => (by decide +kernel : ∀ j < 4, ∀ i < 4, residual rows8 4 j i ≤ 1 / 10 ^ 20) j hj i hi)
  rw [show (2 * (4 : Nat) : ℝ) = 8 by norm_num] at this
  push_cast at this
  exact this

/-- **C28** Newton16, 128 decimal constants. -/
theorem C28_newton16 {N : Num ℝ ℂ} (hN : N.IsExact) (pairs : List (ℝ × ℝ)) (hlen : pairs.length = 8)
    (j : Nat) (hj : j < 8) :
    let v := interpPsi N (interpCoeffs N rows16 pairs) (-((j : ℝ) + 1) / 16)
    |v.1 - pairs[j].1| ≤ 1 / 10 ^ 16 * absSum pairs ∧
    |v.2 - pairs[j].2| ≤ 1 / 10 ^ 16 * absSum pairs := by
  have := interp_error hN (rows := rows16) (ε := 1 / 10 ^ 16) pairs hlen (by decide +kernel)
    (by decide +kernel) j (by omega)
    (fun i hi => (by decide +kernel : ∀ j < 8, ∀ i < 8, residual rows16 8 j i ≤ 1 / 10 ^ 16) j hj i hi)
  rw [show (2 * (8 : Nat) : ℝ) = 16 by norm_num] at this
  push_cast at this
  exact this

/-- **C28** At the centre the phase is zero. -/
theorem C28_centre {N : Num ℝ ℂ} (hN : N.IsExact) (c : List ℝ) : interpPsi N c 0 = (0, 0) := by
  simp only [interpPsi, hN.mul, hN.add, hN.sub]
  simp

/-- **C28** Node `j+1` is at `-(j+1)/(2 half)` in the units of the evaluation. -/
theorem C28_scale {dx : ℝ} (hdx : dx ≠ 0) {half shift : Nat} (hh : half ≠ 0) (hs : shift ≠ 0) (j : ℝ) :
    -((j + 1) * shift * dx) * (1 / (2 * half * dx * shift)) = -(j + 1) / (2 * half) := by
  have : (shift : ℝ) ≠ 0 := by exact_mod_cast hs
  have : (half : ℝ) ≠ 0 := by exact_mod_cast hh
  field_simp

/-- Unit phase at the nearest left node only. -/
example : |(interpPsi realNum (interpCoeffs realNum rows8 [(1, 0), (0, 0), (0, 0), (0, 0)]) (-1/8)).1 - 1|
    ≤ 1 / 10 ^ 20 := by
  have := (C28_newton8 realNum_exact [(1, 0), (0, 0), (0, 0), (0, 0)] rfl 0 (by omega)).1
  simpa [absSum] using this

end Verif
