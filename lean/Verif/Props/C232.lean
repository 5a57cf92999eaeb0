import Verif.Model.CalPage
import Verif.Props.C227

/-!
# The page of the calibration in the summary document (C232, C233, C234)
-/
namespace Verif.CalPage
open Verif.Rsr Verif.Cmp

/-- The number in the label of the first axis is the whole number of MHz of the largest frequency, and with it every value of the axis gives the frequency. -/
theorem C232_sky (f y : List ℚ) (hf : ∀ x ∈ f, 0 ≤ x) (h : skyCurve f = .ok y) :
    ∃ n : ℤ, floorSky f = .ok n ∧ (∃ x ∈ f, (n : ℚ) * 10 ^ 6 ≤ x) ∧ (∀ x ∈ f, x < (n + 1) * 10 ^ 6) ∧ y.map (fun v : ℚ => ((n : ℚ) + v) * 10 ^ 6) = f := by
  cases hn : floorSky f with
  | error e => simp [skyCurve, hn, bind, Except.bind] at h
  | ok n =>
    simp only [skyCurve, hn, bind, Except.bind, pure, Except.pure, Except.ok.injEq] at h
    subst h
    refine ⟨n, rfl, ?_, ?_, ?_⟩
    · cases f with
      | nil => simp [floorSky, npMax, bind, Except.bind] at hn
      | cons a t =>
        have key : ∀ (t : List ℚ) (x : ℚ), t.foldl max x = x ∨ t.foldl max x ∈ t := by
          intro t
          induction t with
          | nil => simp
          | cons b t ih =>
            intro x
            rw [List.foldl_cons]
            rcases ih (max x b) with h | h
            · rcases max_choice x b with h' | h'
              · left; rw [h, h']
              · right; rw [h, h']; exact List.mem_cons_self
            · right; exact List.mem_cons_of_mem _ h
        simp only [floorSky, List.map_cons, npMax, bind, Except.bind, pure, Except.pure, Except.ok.injEq] at hn
        obtain ⟨x, hx, hm⟩ : ∃ x ∈ a :: t, (t.map (· / 1000000)).foldl max (a / 1000000) = x / 1000000 := by
          rcases key (t.map (· / 1000000)) (a / 1000000) with h | h
          · exact ⟨a, List.mem_cons_self, h⟩
          · obtain ⟨x, hx, e⟩ := List.mem_map.mp h
            exact ⟨x, List.mem_cons_of_mem _ hx, e.symm⟩
        have h0 : (0 : ℚ) ≤ x / 1000000 := div_nonneg (hf x hx) (by norm_num)
        rw [hm, trunc, if_pos h0] at hn
        refine ⟨x, hx, ?_⟩
        have := Int.floor_le (x / 1000000)
        rw [hn] at this
        linarith
    · intro x hx
      cases f with
      | nil => simp at hx
      | cons a t =>
        simp only [floorSky, List.map_cons, npMax, bind, Except.bind, pure, Except.pure, Except.ok.injEq] at hn
        have hm : x / 1000000 ≤ (t.map (· / 1000000)).foldl max (a / 1000000) := by
          rcases List.mem_cons.mp hx with rfl | hx
          · exact (le_foldl_max _ _).1
          · exact (le_foldl_max _ _).2 _ (List.mem_map_of_mem hx)
        have h0 : (0 : ℚ) ≤ x / 1000000 := div_nonneg (hf x hx) (by norm_num)
        rw [trunc, if_pos (le_trans h0 hm)] at hn
        have := Int.lt_floor_add_one ((t.map (· / 1000000)).foldl max (a / 1000000))
        rw [hn] at this
        linarith
    · rw [List.map_map]
      conv_rhs => rw [← List.map_id f]
      apply List.map_congr_left
      intro x _
      simp only [Function.comp, id]
      ring

example : skyCurve [8427000000, 8427500000] = .ok [0, 1 / 2] := by decide +kernel

/-- The fit of the frequency offset is inside its limits, with a tenth of a hertz on both sides. -/
theorem C232_offset (fit : List ℚ) (lim : ℚ × ℚ) (h : offsetLimits fit = .ok lim) : ∀ v ∈ fit, lim.1 + 0.1 ≤ v ∧ v ≤ lim.2 - 0.1 := by
  cases fit with
  | nil => simp
  | cons a t =>
    simp only [offsetLimits, npMin, npMax, bind, Except.bind, pure, Except.pure, Except.ok.injEq] at h
    subst h
    intro v hv
    have hm : v ≤ t.foldl max a ∧ t.foldl min a ≤ v := by
      rcases List.mem_cons.mp hv with rfl | hv
      · exact ⟨(le_foldl_max t v).1, (foldl_min_le t v).1⟩
      · exact ⟨(le_foldl_max t a).2 v hv, (foldl_min_le t a).2 v hv⟩
    constructor <;> dsimp only <;> linarith [hm.1, hm.2]

example : offsetLimits [1, 3, 2] = .ok (0.9, 3.1) := by decide +kernel

/-- The power of free space is inside its limits. -/
theorem C232_power (free : List ℚ) (lim : ℚ × ℚ) (hf : ∀ p ∈ free, 0 ≤ p) (h : powerLimits free = .ok lim) : ∀ v ∈ powerCurve free, lim.1 ≤ v ∧ v ≤ lim.2 := by
  have hp : ∀ v ∈ powerCurve free, 0 ≤ v := by
    intro v hv
    obtain ⟨p, hp, rfl⟩ := List.mem_map.mp hv
    exact mul_nonneg (hf p hp) (by norm_num)
  unfold powerLimits at h
  cases hc : powerCurve free with
  | nil => simp
  | cons a t =>
    rw [hc] at h hp
    simp only [npMax, bind, Except.bind, pure, Except.pure, Except.ok.injEq] at h
    subst h
    intro v hv
    have h0 := hp v hv
    have hm : v ≤ t.foldl max a := by
      rcases List.mem_cons.mp hv with rfl | hv
      · exact (le_foldl_max t v).1
      · exact (le_foldl_max t a).2 v hv
    constructor
    · exact h0
    · dsimp only
      norm_num
      linarith

example : powerLimits [10 ^ 9, 5 * 10 ^ 8] = .ok (0, 2.6) := by decide +kernel

/-- What is read from the axis of the power, times the unit in its label, is the power. -/
def Spec.Readable (p : ℚ) (v : ℚ) : Prop := v * powerUnit = p

/-- Ratios of powers are right on the axis. -/
theorem C233_power_partial (obs free : ℚ) (hf : free ≠ 0) : ∃ a b, powerCurve [obs, free] = [a, b] ∧ b ≠ 0 ∧ a / b = obs / free :=
  ⟨_, _, rfl, mul_ne_zero hf (by norm_num), by rw [mul_div_mul_right _ _ (by norm_num)]⟩

example : powerCurve [10 ^ 9, 2 * 10 ^ 9] = [2, 4] := by decide +kernel

/-- The label promises units of 2·10⁹, but the power is multiplied by 2·10⁻⁹ instead of divided by 2·10⁹: all values are 4 times too large. -/
theorem C233_power_false : ∀ p : ℚ, p ≠ 0 → ∃ v, powerCurve [p] = [v] ∧ v * powerUnit = 4 * p ∧ ¬ Spec.Readable p v := by
  intro p hp
  refine ⟨_, rfl, ?_, fun h => hp ?_⟩
  · unfold powerUnit; ring
  · unfold Spec.Readable powerUnit at h
    linarith

/-- What SciPy asks of the width of a smoothing by polynomials of degree 3 of `n` points: odd, larger than the degree, and not larger than `n`. -/
def Spec.Accepted (l : ℤ) (n : Nat) : Prop := Odd l ∧ 3 < l ∧ l ≤ n

/-- From 6 points on the width is accepted; it is the one asked for when there are enough points, and otherwise at most 2 less than the number of points. -/
theorem C234_window_partial (w : ℤ) (hw : Odd w) (h3 : 3 < w) (n : Nat) (hn : 6 ≤ n) :
    Spec.Accepted (windowLength w n) n ∧ (w ≤ n → windowLength w n = w) ∧ (n < w → (n : ℤ) - 2 ≤ windowLength w n) := by
  unfold windowLength Spec.Accepted
  rw [Int.odd_iff] at hw ⊢
  by_cases h : (n : ℤ) < w
  · rw [if_pos h]
    dsimp only
    split <;> refine ⟨⟨?_, ?_, ?_⟩, ?_, ?_⟩ <;> omega
  · rw [if_neg h]
    refine ⟨⟨?_, ?_, ?_⟩, ?_, ?_⟩ <;> omega

example : windowLength 61 1000 = 61 ∧ windowLength 61 50 = 49 ∧ windowLength 123 51 = 49 := by decide

/-- Of 5 points a width of 5 would do, but that of the code is 3. -/
theorem C234_window_false : ∃ n : Nat, (∃ l, Spec.Accepted l n) ∧ ¬ Spec.Accepted (windowLength 61 n) n ∧ ¬ Spec.Accepted (windowLength 123 n) n :=
  ⟨5, ⟨5, by decide, by decide, by decide⟩, fun h => absurd h.2.1 (by decide), fun h => absurd h.2.1 (by decide)⟩

end Verif.CalPage
