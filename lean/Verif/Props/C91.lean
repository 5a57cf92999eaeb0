import Verif.Props.C90
import Mathlib.Algebra.BigOperators.Ring.Finset

/-!
# C91: values of the resampled signal
-/
namespace Verif.Cal
open Verif.Rsr Verif.Geo Spec Verif.Geo.Spec

theorem sum_range_list (f : Nat → ℚ) : ∀ n, ((List.range n).map f).sum = ∑ i ∈ Finset.range n, f i := by
  intro n
  induction n with
  | zero => simp
  | succ n ih => rw [List.range_succ, List.map_append, List.sum_append, ih, Finset.sum_range_succ]; simp

theorem sum_shift (q : Nat) (f : ℤ → ℚ) :
    ∑ j ∈ Finset.range (20 * q + 1), f ((j : ℤ) - 10 * q) = ∑ k ∈ Finset.Icc (-(10 * q : ℤ)) (10 * q), f k := by
  refine Finset.sum_nbij' (fun j => (j : ℤ) - 10 * q) (fun k => (k + 10 * q).toNat) ?_ ?_ ?_ ?_ ?_
  · intro j hj
    simp only [Finset.mem_range, Finset.mem_Icc] at *
    omega
  · intro k hk
    simp only [Finset.mem_range, Finset.mem_Icc] at *
    omega
  · intro j _
    simp
  · intro k hk
    simp only [Finset.mem_Icc] at *
    rw [Int.toNat_of_nonneg (by omega)]
    ring
  · intro j _
    rfl

theorem odd_sum {q : Nat} {h : ℤ → ℚ} (hf : IsFilter q h) : ∑ k ∈ Finset.Icc (-(10 * q : ℤ)) (10 * q), (k : ℚ) * h k = 0 := by
  have e : ∑ k ∈ Finset.Icc (-(10 * q : ℤ)) (10 * q), (k : ℚ) * h k =
      ∑ k ∈ Finset.Icc (-(10 * q : ℤ)) (10 * q), -((k : ℚ) * h k) := by
    refine Finset.sum_nbij' (fun k => -k) (fun k => -k) ?_ ?_ ?_ ?_ ?_
    · intro k hk
      simp only [Finset.mem_Icc] at *
      omega
    · intro k hk
      simp only [Finset.mem_Icc] at *
      omega
    · intro k _
      simp
    · intro k _
      simp
    · intro k _
      simp [hf.even]
  rw [Finset.sum_neg_distrib] at e
  linarith

/-- The values of the half with indices up to 0. -/
theorem half_sum {q : Nat} {h : ℤ → ℚ} (hf : IsFilter q h) :
    ∑ k ∈ Finset.Icc (-(10 * q : ℤ)) 0, h k = (1 + h 0) / 2 := by
  have e : ∑ k ∈ Finset.Icc (-(10 * q : ℤ)) 0, h k = ∑ k ∈ Finset.Icc 0 (10 * q : ℤ), h k := by
    refine Finset.sum_nbij' (fun k => -k) (fun k => -k) ?_ ?_ ?_ ?_ ?_
    · intro k hk
      simp only [Finset.mem_Icc] at *
      omega
    · intro k hk
      simp only [Finset.mem_Icc] at *
      omega
    · intro k _
      simp
    · intro k _
      simp
    · intro k _
      simp [hf.even]
  have u : ∑ k ∈ Finset.Icc (-(10 * q : ℤ)) 0, h k + ∑ k ∈ Finset.Icc 0 (10 * q : ℤ), h k =
      ∑ k ∈ Finset.Icc (-(10 * q : ℤ)) (10 * q), h k + ∑ k ∈ ({0} : Finset ℤ), h k := by
    have a : Finset.Icc (-(10 * q : ℤ)) (10 * q) = Finset.Icc (-(10 * q : ℤ)) 0 ∪ Finset.Icc 0 (10 * q : ℤ) := by
      ext k
      simp only [Finset.mem_union, Finset.mem_Icc]
      omega
    have b : ({0} : Finset ℤ) = Finset.Icc (-(10 * q : ℤ)) 0 ∩ Finset.Icc 0 (10 * q : ℤ) := by
      ext k
      simp only [Finset.mem_inter, Finset.mem_Icc, Finset.mem_singleton]
      omega
    rw [a, b, Finset.sum_union_inter]
  rw [hf.total, Finset.sum_singleton] at u
  linarith

theorem resamplePoly_at {h : Nat → Int → ℚ} {q : Nat} (hq : q ≠ 1) {x : List ℚ} {i : Nat} (hi : i < (x.length + q - 1) / q) :
    (resamplePoly h q x).getD i 0 = ∑ k ∈ Finset.Icc (-(10 * q : ℤ)) (10 * q), h q k * atInt x ((q * i : Nat) - k) := by
  unfold resamplePoly
  rw [if_neg hq, getD_at (by simpa using hi)]
  simp only [List.getElem_map, List.getElem_range]
  rw [sum_range_list, ← sum_shift q (fun k => h q k * atInt x ((q * i : Nat) - k))]

theorem map_range_at {n : Nat} {f : Nat → ℚ} {i : Nat} (h : i < n) : ((List.range n).map f).getD i 0 = f i := by
  rw [getD_at (by simpa using h)]
  simp

/-- An arithmetic progression keeps its values. -/
theorem poly_linear {h : Nat → Int → ℚ} {q : Nat} (hq : 1 ≤ q) (hf : q ≠ 1 → IsFilter q (h q)) {n i : Nat} (a s : ℚ) (h1 : 10 ≤ i)
    (h2 : q * (i + 10) < n) : (resamplePoly h q ((List.range n).map fun k : Nat => a + s * (k : ℚ))).getD i 0 = a + s * (q * i : ℚ) := by
  have hl : i < (n + q - 1) / q := by
    rw [Nat.lt_div_iff_mul_lt (by omega)]
    have : i * q + 10 * q < n := by rw [← add_mul, mul_comm]; exact h2
    omega
  by_cases h1' : q = 1
  · subst h1'
    unfold resamplePoly
    rw [if_pos rfl, map_range_at (by omega)]
    push_cast
    ring
  · have hf := hf h1'
    rw [resamplePoly_at h1' (by simpa using hl)]
    have e : ∀ k ∈ Finset.Icc (-(10 * q : ℤ)) (10 * q),
        h q k * atInt ((List.range n).map fun k : Nat => a + s * (k : ℚ)) ((q * i : Nat) - k) =
        (a + s * (q * i : ℚ)) * h q k - s * ((k : ℚ) * h q k) := by
      intro k hk
      rw [Finset.mem_Icc] at hk
      have h3 : 10 * q ≤ q * i := by rw [mul_comm 10]; exact Nat.mul_le_mul_left q h1
      have h4 : q * i + 10 * q < n := by rw [mul_comm 10, ← mul_add]; exact h2
      obtain ⟨m, hm⟩ : ∃ m : ℕ, ((q * i : Nat) : ℤ) - k = m := ⟨_, (Int.toNat_of_nonneg (by omega)).symm⟩
      unfold atInt
      rw [hm, if_pos (by omega), Int.toNat_natCast, map_range_at (by omega)]
      have : (m : ℚ) = (q * i : ℚ) - k := by
        have : (m : ℤ) = ((q * i : Nat) : ℤ) - k := hm.symm
        have : ((m : ℤ) : ℚ) = ((((q * i : Nat) : ℤ) - k : ℤ) : ℚ) := by rw [this]
        push_cast at this
        exact this
      rw [this]
      ring
    rw [Finset.sum_congr rfl e, Finset.sum_sub_distrib, ← Finset.mul_sum, ← Finset.mul_sum, hf.total, odd_sum hf]
    ring

/-- The first value of a constant signal. -/
theorem poly_first {h : Nat → Int → ℚ} {q : Nat} (hq : 2 ≤ q) (hf : IsFilter q (h q)) {n : Nat} (a : ℚ)
    (h2 : q * 10 < n) : (resamplePoly h q ((List.range n).map fun _ : Nat => a)).getD 0 0 = a * ((1 + h q 0) / 2) := by
  rw [resamplePoly_at (by omega) (by
    rw [Nat.lt_div_iff_mul_lt (by omega)]
    simp only [List.length_map, List.length_range]
    omega), ← half_sum hf, Finset.mul_sum]
  have hs : Finset.Icc (-(10 * q : ℤ)) 0 ⊆ Finset.Icc (-(10 * q : ℤ)) (10 * q) := by
    intro k hk
    rw [Finset.mem_Icc] at *
    omega
  rw [← Finset.sum_subset hs]
  · refine Finset.sum_congr rfl ?_
    intro k hk
    rw [Finset.mem_Icc] at hk
    unfold atInt
    rw [if_pos (by simp; omega), map_range_at (by simp; omega)]
    ring
  · intro k hk hk'
    rw [Finset.mem_Icc] at hk hk'
    unfold atInt
    rw [if_neg (by simp; omega)]
    ring

theorem interp_affine {x : List ℚ} (hx : Growing x) (h2 : 2 ≤ x.length) (a b v : ℚ) :
    interp1d x (x.map fun r => a + b * r) v = a + b * v := by
  unfold interp1d
  simp only
  rw [sort_growing hx]
  have lz : (x.zip (x.map fun r => a + b * r)).length = x.length := by simp
  rw [lz]
  generalize hi : min (max ((x.zip (x.map fun r => a + b * r)).countP fun p => p.1 < v) 1) (x.length - 1) = i
  have i1 : 1 ≤ i := by omega
  have i2 : i < x.length := by omega
  have hm : ∀ j, j < x.length → (x.map fun r => a + b * r).getD j 0 = a + b * x.getD j 0 := by
    intro j hj
    rw [getD_at hj, getD_at (by simpa using hj)]
    simp
  rw [zip_pair (i := i - 1) (by omega) (by simp), zip_pair i2 (by simp), hm (i - 1) (by omega), hm i i2]
  have := hx.lt (show i - 1 < i by omega) i2
  have hne : x.getD i 0 - x.getD (i - 1) 0 ≠ 0 := by linarith
  simp only
  field_simp
  ring

/-- Signals that are linear in the radius keep their values, where the filter does not reach beyond the data: the value belongs to
the radius beside it. -/
theorem C91_linear_partial {rho : List ℚ} {dr : ℚ} (h : Nat → Int → ℚ) (hf : ∀ q, 2 ≤ q → IsFilter q (h q)) (h1 : Growing rho)
    (h2 : 3 ≤ rho.length) (hd : 0 < dr) (hk : ∃ k : ℤ, dr = k / 1000)
    (h4 : rho.getD 0 0 + max dr (1 / 2) < rho.getD (rho.length - 1) 0) (a b c d : ℚ) :
    ∃ (f0 : Nat) (radii : List ℚ) (sig : List (ℚ × ℚ)),
      (∀ fuel, f0 ≤ fuel → resampleIQ h fuel rho (rho.map fun r => (a + b * r, c + d * r)) dr = some (.ok (radii, sig))) ∧
      ∀ i, 10 ≤ i → i + 11 ≤ radii.length →
        sig[i]? = some (a + b * radii.getD i 0, c + d * radii.getD i 0) := by
  obtain ⟨f0, k, q, n, r0, e1, e2, e3, -, e4, e5, e6, e7, e8, e9⟩ :=
    resample_up (iq := rho.map fun r => (a + b * r, c + d * r)) h h1 h2 (by simp) hd h4
  obtain ⟨c1, c2, c3⟩ := ceil_bounds e4 e5
  have hlab : lab r0 rho dr = eff r0 rho dr := by
    unfold lab eff
    split
    · rfl
    · obtain ⟨j, rfl⟩ := hk
      rw [div_mul_cancel₀ _ (by norm_num), pyRound_int]
  have hq : (0 : ℚ) < q := by exact_mod_cast e4
  refine ⟨f0, _, _, e9, ?_⟩
  intro i i1 i2
  simp only [List.length_map, List.length_range] at i2
  have hin : q * (i + 10) < n := by
    have h5 := Nat.div_mul_le_self (n + q - 1) q
    have h6 : (i + 11) * q ≤ (n + q - 1) / q * q := Nat.mul_le_mul_right q i2
    have h7 : (i + 11) * q = q * (i + 10) + q := by ring
    omega
  have hfil : q ≠ 1 → IsFilter q (h q) := fun hne => hf q (by omega)
  have hval : ∀ a b : ℚ, (resamplePoly h q (((List.range n).map fun i : Nat => r0 + eff r0 rho dr / q * (i : ℚ)).map
      (interp1d rho (rho.map fun r => a + b * r)))).getD i 0 =
      a + b * ((List.range ((n + q - 1) / q)).map fun i : Nat => r0 + lab r0 rho dr * (i : ℚ)).getD i 0 := by
    intro a b
    have e : ((List.range n).map fun i : Nat => r0 + eff r0 rho dr / q * (i : ℚ)).map (interp1d rho (rho.map fun r => a + b * r)) =
        (List.range n).map fun i : Nat => (a + b * r0) + b * (eff r0 rho dr / q) * (i : ℚ) := by
      rw [List.map_map]
      apply List.map_congr_left
      intro j _
      simp only [Function.comp]
      rw [interp_affine h1 (by omega)]
      ring
    rw [e, poly_linear e4 hfil _ _ i1 hin, map_range_at (by omega), hlab]
    field_simp
    ring
  have hlen : ∀ l : List ℚ, l.length = n → (resamplePoly h q l).length = (n + q - 1) / q := by
    intro l hl
    rw [resamplePoly_length h e4, hl]
  simp only [List.map_map, Function.comp_def] at *
  rw [List.getElem?_eq_getElem (by simp [hlen]; omega), List.getElem_zip]
  have v1 := hval a b
  have v2 := hval c d
  rw [getD_at (by simp [hlen]; omega)] at v1 v2
  rw [v1, v2]

/-- The mean of `20 q + 1` values is a filter. -/
theorem mean_filter (q : Nat) : IsFilter q (fun _ => 1 / (20 * q + 1)) where
  even _ := rfl
  total := by
    have hc : (10 * (q : ℤ) + 1 - -(10 * (q : ℤ))).toNat = 20 * q + 1 := by omega
    rw [Finset.sum_const, Int.card_Icc, hc, nsmul_eq_mul]
    push_cast
    have : (20 * (q : ℚ) + 1) ≠ 0 := by positivity
    field_simp

example : ∃ h : Nat → Int → ℚ, (∀ q, 2 ≤ q → IsFilter q (h q)) ∧ ∃ rho : List ℚ, Growing rho ∧ 3 ≤ rho.length ∧
    rho.getD 0 0 + max 0.25 (1 / 2) < rho.getD (rho.length - 1) 0 ∧ ∃ k : ℤ, (0.25 : ℚ) = k / 1000 :=
  ⟨fun q _ => 1 / (20 * q + 1), fun q _ => mean_filter q, (List.range 30).map fun i : Nat => 74000 + (i : ℚ) / 10,
    by unfold Growing; decide +kernel, by decide +kernel, by decide +kernel, 250, by norm_num⟩

/-- The value at the first radius of a constant signal is not the constant: where the filter reaches beyond the data, it counts them
as 0. -/
theorem C91_edge_false {rho : List ℚ} {dr : ℚ} (h : Nat → Int → ℚ) (hf : ∀ q, 2 ≤ q → IsFilter q (h q)) (h1 : Growing rho)
    (h2 : 3 ≤ rho.length) (hd : 0 < dr)
    (h4 : rho.getD 0 0 + max dr (1 / 2) < rho.getD (rho.length - 1) 0)
    (h5 : 3 / 2 * (rho.getD (rho.length - 1) 0 - rho.getD 0 0) < dr * (rho.length - 1 : ℚ)) (a : ℚ) :
    ∃ (f0 q : Nat) (radii : List ℚ) (sig : List (ℚ × ℚ)), 2 ≤ q ∧
      (∀ fuel, f0 ≤ fuel → resampleIQ h fuel rho (rho.map fun _ => (a, 0)) dr = some (.ok (radii, sig))) ∧
      (11 ≤ radii.length → sig[0]? = some (a * ((1 + h q 0) / 2), 0)) := by
  obtain ⟨f0, k, q, n, r0, e1, e2, e3, e0, e4, e5, e6, e7, e8, e9⟩ :=
    resample_up (iq := rho.map fun _ => (a, 0)) h h1 h2 (by simp) hd h4
  have hlen3 : (3 : ℚ) ≤ rho.length := by exact_mod_cast h2
  have hm0 : 0 < mean r0 rho := div_pos (by linarith) (by linarith)
  have hm : 3 / 2 * mean r0 rho < dr := by
    unfold mean
    rw [← mul_div_assoc, div_lt_iff₀ (by linarith)]
    linarith
  have heff : eff r0 rho dr = dr := by
    unfold eff
    rw [if_neg (by linarith)]
  have hq2 : 2 ≤ q := by
    rw [heff] at e0
    have h6 : 3 / 2 < dr / mean r0 rho := by rw [lt_div_iff₀ hm0]; exact hm
    have h7 := (abs_le.mp (pyRound_err (dr / mean r0 rho))).1
    rw [← e0] at h7
    push_cast at h7
    have : (1 : ℚ) < q := by linarith
    exact_mod_cast this
  refine ⟨f0, q, _, _, hq2, e9, ?_⟩
  intro hl
  simp only [List.length_map, List.length_range] at hl
  have hin : q * 10 < n := by
    have h5 := Nat.div_mul_le_self (n + q - 1) q
    have h6 : 11 * q ≤ (n + q - 1) / q * q := Nat.mul_le_mul_right q hl
    omega
  have hval : ∀ a : ℚ, (resamplePoly h q (((List.range n).map fun i : Nat => r0 + eff r0 rho dr / q * (i : ℚ)).map
      (interp1d rho (rho.map fun _ => a)))).getD 0 0 = a * ((1 + h q 0) / 2) := by
    intro a
    have e : ((List.range n).map fun i : Nat => r0 + eff r0 rho dr / q * (i : ℚ)).map (interp1d rho (rho.map fun _ => a)) =
        (List.range n).map fun _ : Nat => a := by
      rw [List.map_map]
      apply List.map_congr_left
      intro j _
      simp only [Function.comp]
      have := interp_affine h1 (by omega) a 0 (r0 + eff r0 rho dr / q * j)
      simpa using this
    rw [e, poly_first hq2 (hf q hq2) a hin]
  have hlen : ∀ l : List ℚ, l.length = n → (resamplePoly h q l).length = (n + q - 1) / q := by
    intro l hl
    rw [resamplePoly_length h e4, hl]
  simp only [List.map_map, Function.comp_def] at *
  rw [List.getElem?_eq_getElem (by simp [hlen]; omega), List.getElem_zip]
  have v1 := hval a
  have v2 := hval 0
  rw [getD_at (by simp [hlen]; omega)] at v1 v2
  rw [v1, v2]
  simp

example : ∃ h : Nat → Int → ℚ, (∀ q, 2 ≤ q → IsFilter q (h q) ∧ (1 + h q 0) / 2 < 0.52) ∧ ∃ rho : List ℚ, Growing rho ∧
    3 ≤ rho.length ∧ rho.getD 0 0 + max 0.25 (1 / 2) < rho.getD (rho.length - 1) 0 ∧
    3 / 2 * (rho.getD (rho.length - 1) 0 - rho.getD 0 0) < 0.25 * (rho.length - 1 : ℚ) := by
  refine ⟨fun q _ => 1 / (20 * q + 1), fun q hq => ⟨mean_filter q, ?_⟩, (List.range 50).map fun i : Nat => 74000 + (i : ℚ) / 10,
    by unfold Growing; decide +kernel, by decide +kernel, by decide +kernel, by decide +kernel⟩
  have h2 : (2 : ℚ) ≤ q := by exact_mod_cast hq
  have : 1 / (20 * (q : ℚ) + 1) < 1 / 40 := one_div_lt_one_div_of_lt (by norm_num) (by linarith)
  show (1 + 1 / (20 * (q : ℚ) + 1)) / 2 < 0.52
  generalize 1 / (20 * (q : ℚ) + 1) = x at this
  norm_num
  linarith

/-- With a step that is rounded the values belong to other radii than those beside them. -/
theorem C91_drift_false : ∃ (rho : List ℚ) (dr : ℚ) (fuel : Nat), Growing rho ∧ 3 ≤ rho.length ∧ 0 < dr ∧
    rho.getD 0 0 + max dr (1 / 2) < rho.getD (rho.length - 1) 0 ∧ ∀ h, ∃ (radii : List ℚ) (sig : List (ℚ × ℚ)),
      resampleIQ h fuel rho (rho.map fun r => (r, 0)) dr = some (.ok (radii, sig)) ∧
      ∃ i, 10 ≤ i ∧ i + 11 ≤ radii.length ∧ ∀ x y, sig[i]? = some (x, y) → x ≠ radii.getD i 0 := by
  refine ⟨(List.range 23).map fun i : Nat => 100 + (i : ℚ) / 16, 1 / 16, 10, by unfold Growing; decide +kernel, by decide +kernel,
    by decide +kernel, by decide +kernel, fun h => ⟨(List.range 22).map fun i : Nat => 100 + 31 / 500 * (i : ℚ),
      (List.range 22).map fun i : Nat => (100 + (i : ℚ) / 16, 0), ?_, 10, by decide, by decide +kernel, ?_⟩⟩
  · have hp : preResample 10 ((List.range 23).map fun i : Nat => 100 + (i : ℚ) / 16)
        ((List.range 23).map fun i : Nat => 100 + (i : ℚ) / 16) (1 / (1 / 16)) =
        some (.ok ⟨(List.range 22).map fun i : Nat => 100 + (i : ℚ) / 16, (List.range 22).map fun i : Nat => 100 + (i : ℚ) / 16,
          1, 31 / 500⟩) := by decide +kernel
    have hp0 : preResample 10 ((List.range 23).map fun i : Nat => 100 + (i : ℚ) / 16) ((List.range 23).map fun _ : Nat => 0)
        (1 / (1 / 16)) = some (.ok ⟨(List.range 22).map fun i : Nat => 100 + (i : ℚ) / 16, (List.range 22).map fun _ : Nat => 0,
          1, 31 / 500⟩) := by decide +kernel
    unfold resampleIQ
    rw [if_neg (by decide +kernel)]
    have hu : ¬ ((List.range 23).map fun i : Nat => 100 + (i : ℚ) / 16).getD 1 0 -
      ((List.range 23).map fun i : Nat => 100 + (i : ℚ) / 16).getD 0 0 < 0 := by decide +kernel
    simp only [hu, if_false, List.map_map, Function.comp_def]
    rw [if_neg (by norm_num), hp, hp0]
    simp only [bind, Except.bind, pure, Except.pure, resamplePoly, if_true]
    decide +kernel
  · intro x y hxy
    have : ((List.range 22).map fun i : Nat => ((100 + (i : ℚ) / 16, 0) : ℚ × ℚ))[10]? = some (100 + 10 / 16, 0) := by decide +kernel
    rw [this] at hxy
    obtain ⟨rfl, rfl⟩ := Prod.mk.inj (Option.some.inj hxy)
    decide +kernel

end Verif.Cal
