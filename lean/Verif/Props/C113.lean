import Verif.Model.Titan
import Mathlib.Tactic.FieldSimp
import Mathlib.Tactic.Linarith

/-!
# C113: effect of Titan
-/
namespace Verif.Titan
open Real

/-- Away from the resonance the offset is that of a test particle: inversely proportional to the distance from the resonance, with
opposite signs on both sides. -/
theorem C113_particle {titan londeg rkm minDist : ℝ} (h : minDist ≤ |rkm - 77861.5|) :
    drTitan titan londeg rkm minDist = 382 / (77861.5 - rkm) * cos ((londeg - titan) * (π / 180)) := by
  unfold drTitan
  simp only
  rw [max_eq_right h]
  split
  · rename_i h0
    rw [abs_of_pos h0, sub_mul, show (180 : ℝ) * (π / 180) = π by ring, cos_sub_pi, ← neg_sub rkm, div_neg]
    ring
  · rename_i h0
    rw [abs_of_nonpos (not_lt.mp h0), neg_sub, sub_zero]

example : drTitan 30 90 (77861.5 - 100) 10 = 191 / 100 := by
  rw [C113_particle (by norm_num [abs_of_neg]), show ((90 : ℝ) - 30) * (π / 180) = π / 3 by ring, cos_pi_div_three]
  norm_num

/-- Within the least distance the offset is limited. -/
theorem C113_bound {titan londeg rkm minDist : ℝ} (h : 0 < minDist) : |drTitan titan londeg rkm minDist| ≤ 382 / minDist := by
  unfold drTitan
  simp only
  have hm : 0 < max minDist |rkm - 77861.5| := lt_max_of_lt_left h
  rw [abs_mul, abs_of_pos (div_pos (by norm_num) hm)]
  calc _ ≤ 382 / max minDist |rkm - 77861.5| * 1 := by
        apply mul_le_mul_of_nonneg_left (abs_cos_le_one _) (div_pos (by norm_num) hm).le
    _ ≤ 382 / minDist := by
        rw [mul_one]
        exact div_le_div_of_nonneg_left (by norm_num) h (le_max_left _ _)

/-- With the default, the least distance is also the greatest offset. -/
theorem C113_default (titan londeg rkm : ℝ) : |drTitan titan londeg rkm (√382)| ≤ √382 := by
  have h : 0 < √(382 : ℝ) := sqrt_pos.mpr (by norm_num)
  have := C113_bound (titan := titan) (londeg := londeg) (rkm := rkm) h
  rwa [div_eq_of_eq_mul h.ne' (mul_self_sqrt (by norm_num)).symm] at this

example : drTitan 0 0 77861.5 (√382) = √382 := by
  have h : 0 < √(382 : ℝ) := sqrt_pos.mpr (by norm_num)
  norm_num [drTitan]

/-- Whole turns of either longitude make no difference. -/
theorem C113_turns (titan londeg rkm minDist : ℝ) (j k : ℤ) :
    drTitan (titan + 360 * j) (londeg + 360 * k) rkm minDist = drTitan titan londeg rkm minDist := by
  have key : ∀ d : ℝ, cos ((londeg + 360 * k - (titan + 360 * j) - d) * (π / 180)) = cos ((londeg - titan - d) * (π / 180)) := by
    intro d
    rw [← cos_add_int_mul_two_pi ((londeg - titan - d) * (π / 180)) (k - j)]
    congr 1
    push_cast
    ring
  unfold drTitan
  simp only [key]

/-- Up to `nmax` samples, each gets its own offset. -/
theorem C113_short {titan : ℝ → ℝ} {minDist : ℝ} {nmax : Nat} {ts lons rs : List ℝ} (h : ts.length ≤ nmax)
    (h1 : lons.length = ts.length) (h2 : rs.length = ts.length) : (drTitanVec titan minDist nmax ts lons rs).length = ts.length ∧
    ∀ i < ts.length, (drTitanVec titan minDist nmax ts lons rs).getD i 0 =
      drTitan (titan (ts.getD i 0)) (lons.getD i 0) (rs.getD i 0) minDist := by
  rw [drTitanVec, if_neg (by omega), drList]
  refine ⟨by simp [h1, h2], fun i hi => ?_⟩
  have a1 : i < lons.length := by omega
  have a2 : i < rs.length := by omega
  simp only [List.getD_eq_getElem?_getD, List.getElem?_map, List.getElem?_eq_getElem hi, List.getElem?_eq_getElem a1,
    List.getElem?_eq_getElem a2, Option.getD_some]
  have : (ts.zip (lons.zip rs))[i]? = some (ts[i], lons[i], rs[i]) := by
    rw [List.getElem?_eq_getElem (by simp; omega)]
    simp
  rw [this]
  rfl

example : drTitanVec (fun _ => 30) 10 500 [0, 1] [90, 90] [77861.5 - 100, 77861.5 - 200] = [191 / 100, 191 / 200] := by
  have e : ((90 : ℝ) - 30) * (π / 180) = π / 3 := by ring
  have a1 : drTitan 30 90 (77861.5 - 100) 10 = 191 / 100 := by
    rw [C113_particle (by norm_num [abs_of_neg]), e, cos_pi_div_three]; norm_num
  have a2 : drTitan 30 90 (77861.5 - 200) 10 = 191 / 200 := by
    rw [C113_particle (by norm_num [abs_of_neg]), e, cos_pi_div_three]; norm_num
  simp [drTitanVec, drList, a1, a2]

theorem count_first {xs : List ℝ} (h : xs.Pairwise (· < ·)) : (xs.countP fun v => open Classical in decide (v < xs.getD 0 0)) = 0 := by
  rw [List.countP_eq_zero]
  intro v hv
  cases xs with
  | nil => cases hv
  | cons x xs =>
    rcases List.mem_cons.mp hv with rfl | hv
    · simp
    · simp [(List.rel_of_pairwise_cons h hv).le]

theorem count_last {xs : List ℝ} (h : xs.Pairwise (· < ·)) :
    (xs.countP fun v => open Classical in decide (v < xs.getD (xs.length - 1) 0)) = xs.length - 1 := by
  rcases List.eq_nil_or_concat xs with rfl | ⟨l, x, rfl⟩
  · rfl
  · rw [List.concat_eq_append] at *
    have e : (l ++ [x]).getD ((l ++ [x]).length - 1) 0 = x := by simp [List.getD_eq_getElem?_getD]
    rw [e, List.countP_append, List.countP_eq_length.mpr]
    · simp
    · intro v hv
      simpa using (List.pairwise_append.mp h).2.2 v hv x (by simp)

theorem interp1d_last {xs ys : List ℝ} {x : ℝ} (h : (xs.countP fun v => open Classical in decide (v < x)) = xs.length - 1) (h2 : 2 ≤ xs.length)
    (hx : x = xs.getD (xs.length - 1) 0) (hn : xs.getD (xs.length - 1) 0 ≠ xs.getD (xs.length - 2) 0) :
    interp1d xs ys x = ys.getD (xs.length - 1) 0 := by
  unfold interp1d
  simp only
  rw [h, max_eq_left (by omega), min_self, show xs.length - 1 - 1 = xs.length - 2 by omega, hx, div_mul_cancel₀ _ (sub_ne_zero.mpr hn)]
  ring

theorem interp1d_first {xs ys : List ℝ} {x : ℝ} (h : (xs.countP fun v => open Classical in decide (v < x)) = 0) (h2 : 2 ≤ xs.length)
    (hx : x = xs.getD 0 0) : interp1d xs ys x = ys.getD 0 0 := by
  unfold interp1d
  simp only
  rw [h, max_eq_right (by omega), min_eq_left (by omega), Nat.sub_self, hx, sub_self, mul_zero, zero_add]

theorem linspace_growing {a b : ℝ} (h : a < b) {n : Nat} (hn : 2 ≤ n) : (linspace a b n).Pairwise (· < ·) := by
  have h2 : (2 : ℝ) ≤ n := by exact_mod_cast hn
  have hd : 0 < (b - a) / ((n : ℝ) - 1) := div_pos (by linarith) (by linarith)
  unfold linspace
  rw [List.pairwise_map]
  refine List.pairwise_lt_range.imp fun {i j} hij => ?_
  have : (i : ℝ) < j := by exact_mod_cast hij
  linarith [mul_lt_mul_of_pos_right this hd]

theorem linspace_ends (a b : ℝ) {n : Nat} (hn : 2 ≤ n) : (linspace a b n).length = n ∧ (linspace a b n).getD 0 0 = a ∧
    (linspace a b n).getD (n - 1) 0 = b := by
  have h2 : (2 : ℝ) ≤ n := by exact_mod_cast hn
  have h3 : (n : ℝ) - 1 ≠ 0 := by linarith
  unfold linspace
  refine ⟨by simp, ?_, ?_⟩
  · simp [List.getD_eq_getElem?_getD, show 0 < n by omega]
  · simp only [List.getD_eq_getElem?_getD, List.getElem?_map, List.getElem?_range (show n - 1 < n by omega), Option.map_some, Option.getD_some]
    rw [Nat.cast_sub (by omega)]
    push_cast
    field_simp
    ring

/-- For more samples the first and the last one get their own offset. -/
theorem C113_ends {titan : ℝ → ℝ} {minDist : ℝ} {nmax : Nat} {ts lons rs : List ℝ} (hn : 2 ≤ nmax) (h : nmax < ts.length)
    (hg : ts.Pairwise (· < ·)) (h1 : lons.length = ts.length) (h2 : rs.length = ts.length) :
    (drTitanVec titan minDist nmax ts lons rs).length = ts.length ∧
    (drTitanVec titan minDist nmax ts lons rs).getD 0 0 = drTitan (titan (ts.getD 0 0)) (lons.getD 0 0) (rs.getD 0 0) minDist ∧
    (drTitanVec titan minDist nmax ts lons rs).getD (ts.length - 1) 0 =
      drTitan (titan (ts.getD (ts.length - 1) 0)) (lons.getD (ts.length - 1) 0) (rs.getD (ts.length - 1) 0) minDist := by
  have hlt : ∀ i j, i < j → j < ts.length → ts.getD i 0 < ts.getD j 0 := by
    intro i j hij hj
    have := List.pairwise_iff_getElem.mp hg i j (by omega) hj hij
    simpa [List.getD_eq_getElem?_getD, List.getElem?_eq_getElem hj, List.getElem?_eq_getElem (show i < ts.length by omega)] using this
  have hab := hlt 0 (ts.length - 1) (by omega) (by omega)
  have f : ∀ ys : List ℝ, interp1d ts ys (ts.getD 0 0) = ys.getD 0 0 := fun ys =>
    interp1d_first (count_first hg) (by omega) rfl
  have g : ∀ ys : List ℝ, interp1d ts ys (ts.getD (ts.length - 1) 0) = ys.getD (ts.length - 1) 0 := fun ys =>
    interp1d_last (count_last hg) (by omega) rfl (hlt _ _ (by omega) (by omega)).ne'
  rw [drTitanVec, if_pos h]
  simp only
  set us := linspace (ts.getD 0 0) (ts.getD (ts.length - 1) 0) nmax with hus
  obtain ⟨l0, l1, l2⟩ := linspace_ends (ts.getD 0 0) (ts.getD (ts.length - 1) 0) hn
  have ug := linspace_growing hab hn
  rw [← hus] at l0 l1 l2 ug
  have dl : ∀ i < nmax, (drList titan minDist us (us.map (interp1d ts lons)) (us.map (interp1d ts rs))).getD i 0 =
      drTitan (titan (us.getD i 0)) (interp1d ts lons (us.getD i 0)) (interp1d ts rs (us.getD i 0)) minDist := by
    intro i hi
    have hi' : i < us.length := by omega
    simp [drList, List.getD_eq_getElem?_getD, hi']
  have uf : ∀ ys : List ℝ, interp1d us ys (ts.getD 0 0) = ys.getD 0 0 := fun ys =>
    interp1d_first (by rw [← l1]; exact count_first ug) (by omega) l1.symm
  have ugl : ∀ ys : List ℝ, interp1d us ys (ts.getD (ts.length - 1) 0) = ys.getD (nmax - 1) 0 := by
    intro ys
    have e : us.getD (us.length - 1) 0 = ts.getD (ts.length - 1) 0 := by rw [l0, l2]
    rw [interp1d_last (by rw [← e]; exact count_last ug) (by omega) e.symm, l0]
    have := List.pairwise_iff_getElem.mp ug (us.length - 2) (us.length - 1) (by omega) (by omega) (by omega)
    rw [List.getD_eq_getElem?_getD, List.getD_eq_getElem?_getD, List.getElem?_eq_getElem (by omega), List.getElem?_eq_getElem (by omega)]
    exact this.ne'
  have mp : ∀ (F : ℝ → ℝ) (i : Nat), i < ts.length → (ts.map F).getD i 0 = F (ts.getD i 0) := by
    intro F i hi
    simp [List.getD_eq_getElem?_getD, hi]
  refine ⟨by simp, ?_, ?_⟩
  · rw [mp _ 0 (by omega), uf, dl 0 (by omega), l1, f, f]
  · rw [mp _ _ (by omega), ugl, dl _ (by omega), l2, g, g]

example : (drTitanVec (fun _ => 30) 10 2 [0, 1, 3] [90, 90, 90] [77861.5 - 100, 77861.5 - 200, 77861.5 - 400]).getD 2 0 = 191 / 400 := by
  have h := (C113_ends (titan := fun _ => 30) (minDist := 10) (nmax := 2) (ts := [0, 1, 3]) (lons := [90, 90, 90])
    (rs := [77861.5 - 100, 77861.5 - 200, 77861.5 - 400]) (by decide) (by simp) (by norm_num) rfl rfl).2.2
  refine h.trans ?_
  change drTitan 30 90 (77861.5 - 400) 10 = _
  rw [C113_particle (by norm_num [abs_of_neg]), show ((90 : ℝ) - 30) * (π / 180) = π / 3 by ring, cos_pi_div_three]
  norm_num

/-- For more samples the longitudes are interpolated across 360 degrees: all four offsets should be negative, but the second is not. -/
theorem C113_wrap_false : ∃ (lons : List ℝ), lons = [300, 330, 30, 60] ∧ (∀ l ∈ lons, drTitan 0 l (77861.5 + 382) 1 < 0) ∧
    (drTitanVec (fun _ => 0) 1 3 [0, 1, 3, 4] lons (List.replicate 4 (77861.5 + 382))).getD 1 0 = 1 / 4 := by
  have hp : ∀ l : ℝ, drTitan 0 l (77861.5 + 382) 1 = -cos (l * (π / 180)) := by
    intro l
    rw [C113_particle (by norm_num), sub_zero]
    norm_num
  have h330 : cos ((330 : ℝ) * (π / 180)) = cos (π / 6) := by
    rw [show (330 : ℝ) * (π / 180) = 2 * π - π / 6 by ring, cos_two_pi_sub]
  have h300 : cos ((300 : ℝ) * (π / 180)) = 1 / 2 := by
    rw [show (300 : ℝ) * (π / 180) = 2 * π - π / 3 by ring, cos_two_pi_sub, cos_pi_div_three]
  have c6 : 0 < cos (π / 6) := by
    rw [cos_pi_div_six]
    have : 0 < √(3 : ℝ) := sqrt_pos.mpr (by norm_num)
    linarith
  refine ⟨_, rfl, ?_, ?_⟩
  · intro l hl
    rw [hp]
    simp only [List.mem_cons, List.not_mem_nil, or_false] at hl
    rcases hl with rfl | rfl | rfl | rfl
    · rw [h300]; norm_num
    · rw [h330]; linarith
    · rw [show (30 : ℝ) * (π / 180) = π / 6 by ring]; linarith
    · rw [show (60 : ℝ) * (π / 180) = π / 3 by ring, cos_pi_div_three]; norm_num
  · have e1 : linspace 0 4 3 = [0, 2, 4] := by
      rw [linspace, show List.range 3 = [0, 1, 2] by rfl]
      norm_num
    have i0 : interp1d [0, 1, 3, 4] [300, 330, 30, 60] 0 = 300 := by norm_num [interp1d, List.countP_cons]
    have i2 : interp1d [0, 1, 3, 4] [300, 330, 30, 60] 2 = 180 := by norm_num [interp1d, List.countP_cons]
    have i4 : interp1d [0, 1, 3, 4] [300, 330, 30, 60] 4 = 60 := by norm_num [interp1d, List.countP_cons]
    have r : ∀ x : ℝ, x = 0 ∨ x = 2 ∨ x = 4 → interp1d [0, 1, 3, 4] (List.replicate 4 (77861.5 + 382)) x = 77861.5 + 382 := by
      rintro x (rfl | rfl | rfl) <;> norm_num [interp1d, List.countP_cons, List.replicate]
    have h180 : cos ((180 : ℝ) * (π / 180)) = -1 := by rw [show (180 : ℝ) * (π / 180) = π by ring, cos_pi]
    unfold drTitanVec
    rw [if_pos (by simp)]
    simp only [List.length_cons, List.length_nil, List.getD_cons_zero]
    rw [show ([0, 1, 3, 4] : List ℝ).getD (0 + 1 + 1 + 1 + 1 - 1) 0 = 4 by rfl, e1]
    simp only [List.map_cons, List.map_nil, i0, i2, i4, r 0 (by simp), r 2 (by simp), r 4 (by simp), drList, List.zip_cons_cons, List.zip_nil_left,
      hp, h300, h180]
    norm_num [interp1d, List.countP_cons]

end Verif.Titan
