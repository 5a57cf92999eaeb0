import Verif.Model.PowerNorm
import Verif.Props.C91

/-!
# C92: times and powers of the downsampled signal
-/
namespace Verif.Cal
open Verif.Rsr Verif.Geo Spec Verif.Geo.Spec

theorem linspace_length (a b : ℚ) (m : Nat) : (linspace a b m).length = m := by
  unfold linspace
  split
  · rename_i h
    subst h
    rfl
  · simp

theorem linspace_at {a b : ℚ} {m i : Nat} (h : i < m) :
    (linspace a b m).getD i 0 = a + (i : ℚ) * ((b - a) / ((m : ℚ) - 1)) := by
  unfold linspace
  split
  · have : i = 0 := by omega
    subst this
    simp
  · exact map_range_at h

/-- The downsampled signal of data with equal steps. -/
theorem down_of {h : Nat → Int → ℚ} {N q : Nat} {t0 dt : ℚ} (hd : 0 < dt) (hN : 2 ≤ N) (hq : 1 ≤ q) {iq : List (ℚ × ℚ)}
    (hl : iq.length = N) :
    downsampleIQ h ((List.range N).map fun i : Nat => t0 + dt * (i : ℚ)) iq (q * dt) =
      .ok (linspace t0 (t0 + dt * (N - 1 : ℚ)) ((N + q - 1) / q),
        List.zipWith (fun i j => i ^ 2 + j ^ 2) (resamplePoly h q (iq.map (·.1))) (resamplePoly h q (iq.map (·.2)))) := by
  have h0 : ((List.range N).map fun i : Nat => t0 + dt * (i : ℚ)).getD 0 0 = t0 := by
    rw [map_range_at (by omega)]; simp
  have h1 : ((List.range N).map fun i : Nat => t0 + dt * (i : ℚ)).getD 1 0 - t0 = dt := by
    rw [map_range_at (by omega)]; simp
  have h2 : ((List.range N).map fun i : Nat => t0 + dt * (i : ℚ)).getD (N - 1) 0 = t0 + dt * (N - 1 : ℚ) := by
    rw [map_range_at (by omega), Nat.cast_sub (by omega)]; simp
  have hr : pyRound (q * dt / dt) = (q : ℤ) := by
    rw [mul_div_assoc, div_self hd.ne', mul_one]
    exact pyRound_int q
  have hc : ¬ ((q : ℤ) < 1) := by omega
  unfold downsampleIQ
  simp only [List.length_map, List.length_range]
  rw [if_neg (by omega), h0, h1, if_neg hd.ne', hr, h2]
  rw [if_neg hc]
  simp only [Int.toNat_natCast, List.length_zipWith, resamplePoly_length h hq, List.length_map, hl, Nat.min_self]

theorem power_at {h : Nat → Int → ℚ} (hf : ∀ q, 2 ≤ q → IsFilter q (h q)) {N q : Nat} (hq : 1 ≤ q) (a b c d : ℚ) {i : Nat}
    (i1 : 10 ≤ i) (i2 : q * (i + 10) < N) :
    (List.zipWith (fun i j => i ^ 2 + j ^ 2)
      (resamplePoly h q ((List.range N).map fun k : Nat => a + b * (k : ℚ)))
      (resamplePoly h q ((List.range N).map fun k : Nat => c + d * (k : ℚ)))).getD i 0 =
    (a + b * (q * i : ℚ)) ^ 2 + (c + d * (q * i : ℚ)) ^ 2 := by
  have hl : i < (N + q - 1) / q := by
    rw [Nat.lt_div_iff_mul_lt (by omega)]
    have : i * q + 10 * q < N := by rw [← add_mul, mul_comm]; exact i2
    omega
  have hfil : q ≠ 1 → IsFilter q (h q) := fun hne => hf q (by omega)
  have v1 := poly_linear hq hfil a b i1 i2
  have v2 := poly_linear hq hfil c d i1 i2
  have l1 : ∀ x : List ℚ, x.length = N → i < (resamplePoly h q x).length := by
    intro x hx
    rw [resamplePoly_length h hq, hx]
    exact hl
  rw [getD_at (l1 _ (by simp))] at v1 v2
  rw [getD_at (by rw [List.length_zipWith]; exact lt_min (l1 _ (by simp)) (l1 _ (by simp))), List.getElem_zipWith, v1, v2]

/-- If the number of steps between the data is a multiple of the factor, the times are those of the data at multiples of the
factor; where the filter does not reach beyond the data, signals that are linear in time have there the power that is returned. -/
theorem C92_times_partial {h : Nat → Int → ℚ} (hf : ∀ q, 2 ≤ q → IsFilter q (h q)) {N q : Nat} {t0 dt : ℚ} (hd : 0 < dt)
    (hN : 2 ≤ N) (hq : 1 ≤ q) (hdiv : q ∣ N - 1) (a b c d : ℚ) :
    ∃ times power, downsampleIQ h ((List.range N).map fun i : Nat => t0 + dt * (i : ℚ))
        ((List.range N).map fun i : Nat => (a + b * (t0 + dt * (i : ℚ)), c + d * (t0 + dt * (i : ℚ)))) (q * dt) =
        .ok (times, power) ∧
      power.length = times.length ∧ times.length = (N - 1) / q + 1 ∧
      (∀ i, i < times.length → times.getD i 0 = t0 + dt * (q * i : ℚ)) ∧
      ∀ i, 10 ≤ i → i + 11 ≤ times.length →
        power.getD i 0 = (a + b * times.getD i 0) ^ 2 + (c + d * times.getD i 0) ^ 2 := by
  obtain ⟨m, hm⟩ := hdiv
  have hceil : (N + q - 1) / q = m + 1 := by
    have : N + q - 1 = q * (m + 1) := by rw [mul_add, ← hm]; omega
    rw [this, Nat.mul_div_cancel_left _ (by omega)]
  have hm1 : (N - 1) / q = m := by rw [hm, Nat.mul_div_cancel_left _ (by omega)]
  have hm0 : 0 < m := by
    rcases Nat.eq_zero_or_pos m with rfl | h
    · omega
    · exact h
  have ht : ∀ i, i < m + 1 → (linspace t0 (t0 + dt * (N - 1 : ℚ)) (m + 1)).getD i 0 = t0 + dt * (q * i : ℚ) := by
    intro i hi
    rw [linspace_at hi]
    have e : (N : ℚ) - 1 = q * m := by
      have : N = q * m + 1 := by omega
      rw [this]
      push_cast
      ring
    have : (m : ℚ) ≠ 0 := by exact_mod_cast hm0.ne'
    rw [e]
    push_cast
    rw [add_sub_cancel_right, add_sub_cancel_left]
    field_simp
  refine ⟨_, _, down_of hd hN hq (by simp), ?_, ?_, ?_, ?_⟩
  · simp [linspace_length, resamplePoly_length h hq]
  · rw [linspace_length, hceil, hm1]
  · intro i hi
    rw [linspace_length, hceil] at hi
    rw [hceil]
    exact ht i hi
  · intro i i1 i2
    rw [linspace_length, hceil] at i2
    have hin : q * (i + 10) < N := by
      have : q * (i + 10) ≤ q * m := Nat.mul_le_mul_left q (by omega)
      omega
    rw [hceil, ht i (by omega)]
    have := power_at hf hq (a + b * t0) (b * dt) (c + d * t0) (d * dt) i1 hin
    simp only [List.map_map, Function.comp_def]
    have e : ∀ a b : ℚ, ((List.range N).map fun i : Nat => a + b * (t0 + dt * (i : ℚ))) =
        (List.range N).map fun i : Nat => a + b * t0 + b * dt * (i : ℚ) := by
      intro a b
      apply List.map_congr_left
      intro i _
      ring
    rw [e, e, this]
    ring

/-- Otherwise the times are spread too far: the power of the signal at every inner time belongs to an earlier time. -/
theorem C92_times_false {h : Nat → Int → ℚ} (hf : ∀ q, 2 ≤ q → IsFilter q (h q)) {N q : Nat} {t0 dt : ℚ} (hd : 0 < dt)
    (hN : 2 ≤ N) (hq : 1 ≤ q) (hdiv : ¬ q ∣ N - 1) :
    ∃ times power, downsampleIQ h ((List.range N).map fun i : Nat => t0 + dt * (i : ℚ))
        ((List.range N).map fun i : Nat => (t0 + dt * (i : ℚ), 0)) (q * dt) = .ok (times, power) ∧
      ∀ i, 10 ≤ i → i + 11 ≤ times.length →
        power.getD i 0 = (t0 + dt * (q * i : ℚ)) ^ 2 ∧ t0 + dt * (q * i : ℚ) < times.getD i 0 := by
  refine ⟨_, _, down_of hd hN hq (by simp), ?_⟩
  intro i i1 i2
  rw [linspace_length] at i2
  have hin : q * (i + 10) < N := by
    have h5 := Nat.div_mul_le_self (N + q - 1) q
    have h6 : (i + 11) * q ≤ (N + q - 1) / q * q := Nat.mul_le_mul_right q i2
    have h7 : (i + 11) * q = q * (i + 10) + q := by ring
    omega
  constructor
  · have := power_at hf hq t0 dt 0 0 i1 hin
    simp only [List.map_map, Function.comp_def]
    simp only [zero_add, zero_mul] at this
    rw [this]
    ring
  · rw [linspace_at (by omega)]
    obtain ⟨m, hm⟩ : ∃ m, (N + q - 1) / q = m + 1 := ⟨(N + q - 1) / q - 1, by omega⟩
    rw [hm] at i2 ⊢
    have hlt : q * m < N - 1 := by
      have h5 := Nat.div_mul_le_self (N + q - 1) q
      rw [hm] at h5
      have h6 : (m + 1) * q = q * m + q := by ring
      have : q * m ≠ N - 1 := fun he => hdiv ⟨m, he.symm⟩
      omega
    have hlt' : (q * m : ℚ) < N - 1 := by
      have : q * m + 1 < N := by omega
      have : (q * m + 1 : ℚ) < N := by exact_mod_cast this
      linarith
    have hm0 : (0 : ℚ) < m := by
      have : 0 < m := by omega
      exact_mod_cast this
    have hi0 : (0 : ℚ) < i := by
      have : 0 < i := by omega
      exact_mod_cast this
    push_cast
    have e : (t0 + dt * (N - 1 : ℚ) - t0) / ((m : ℚ) + 1 - 1) = dt * ((N - 1 : ℚ) / m) := by
      rw [add_sub_cancel_right, add_sub_cancel_left, mul_div_assoc]
    rw [e]
    have : (q : ℚ) < (N - 1 : ℚ) / m := by rw [lt_div_iff₀ hm0]; exact hlt'
    have : dt * q * i < dt * ((N - 1 : ℚ) / m) * i :=
      mul_lt_mul_of_pos_right (mul_lt_mul_of_pos_left this hd) hi0
    linarith

/-- One minute of data with 1000 values per second (`60000 - 1` steps), downsampled to 0.2 s; one more value makes it right. -/
example : (200 : ℚ) * (1 / 1000) = 0.2 ∧ ¬ 200 ∣ 60000 - 1 ∧ 200 ∣ 60001 - 1 := by
  refine ⟨by norm_num, by decide, by decide⟩

end Verif.Cal
