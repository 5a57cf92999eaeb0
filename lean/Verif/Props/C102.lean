import Verif.Props.C101

/-!
# C102: sky frequency
-/
namespace Verif.Cal
open Real Verif.Geo Verif.Cal.Spec Filter Topology

/-- The number of cycles that the station counts on its own clock `clock3` changes with the frequency of the model: the spacecraft
sends `f` cycles per unit of its own clock `clock2`, and what arrives at `s` was sent at `s - lt s`. -/
theorem C102_oneway {clock2 clock3 lt g : ℝ → ℝ} {f a b2 b3 F t : ℝ} (h2 : HasDerivAt clock2 (1 - b2) (t - lt t))
    (h3 : HasDerivAt clock3 (1 - b3) t) (hb : b3 ≠ 1) (hl : HasDerivAt lt a t) (hg : HasDerivAt g F (clock3 t))
    (hc : ∀ᶠ s in 𝓝 t, g (clock3 s) = f * clock2 (s - lt s)) : skyOneWay f a b2 b3 = F := by
  have hf : HasDerivAt (fun s => s - lt s) (1 - a) t := (hasDerivAt_id t).sub hl
  have e1 : HasDerivAt (fun s => f * clock2 (s - lt s)) (f * ((1 - b2) * (1 - a))) t :=
    (HasDerivAt.comp (h := fun s => s - lt s) t h2 hf).const_mul f
  have e2 := (hg.comp t h3).unique (e1.congr_of_eventuallyEq hc)
  have hb' : 1 - b3 ≠ 0 := sub_ne_zero.mpr hb.symm
  have : F = f * ((1 - b2) * (1 - a)) / (1 - b3) := by rw [eq_div_iff hb']; exact e2
  rw [this]
  unfold skyOneWay
  field_simp
  ring

/-- With an uplink: station 1 sends `f` cycles per unit of its own clock, which arrive at the spacecraft at `u` after the time
`lt12 u`; the spacecraft sends `turn` cycles for each of them. -/
theorem C102_multiway {clock1 clock3 lt12 lt23 g : ℝ → ℝ} {f turn a12 a23 b1 b3 F t : ℝ}
    (h1 : HasDerivAt clock1 (1 - b1) (t - lt23 t - lt12 (t - lt23 t))) (h3 : HasDerivAt clock3 (1 - b3) t) (hb : b3 ≠ 1)
    (hl23 : HasDerivAt lt23 a23 t) (hl12 : HasDerivAt lt12 a12 (t - lt23 t)) (hg : HasDerivAt g F (clock3 t))
    (hc : ∀ᶠ s in 𝓝 t, g (clock3 s) = turn * (f * clock1 (s - lt23 s - lt12 (s - lt23 s)))) :
    skyMultiWay f turn a12 a23 b1 b3 = F := by
  have hf : HasDerivAt (fun s => s - lt23 s) (1 - a23) t := (hasDerivAt_id t).sub hl23
  have hh : HasDerivAt (fun s => s - lt23 s - lt12 (s - lt23 s)) ((1 - a23) - a12 * (1 - a23)) t :=
    hf.sub (HasDerivAt.comp (h := fun s => s - lt23 s) t hl12 hf)
  have e1 : HasDerivAt (fun s => turn * (f * clock1 (s - lt23 s - lt12 (s - lt23 s))))
      (turn * (f * ((1 - b1) * ((1 - a23) - a12 * (1 - a23))))) t :=
    ((HasDerivAt.comp (h := fun s => s - lt23 s - lt12 (s - lt23 s)) t h1 hh).const_mul f).const_mul turn
  have e2 := (hg.comp t h3).unique (e1.congr_of_eventuallyEq hc)
  have hb' : 1 - b3 ≠ 0 := sub_ne_zero.mpr hb.symm
  have : F = turn * (f * ((1 - b1) * ((1 - a23) - a12 * (1 - a23)))) / (1 - b3) := by rw [eq_div_iff hb']; exact e2
  rw [this]
  unfold skyMultiWay
  field_simp
  ring

/-- A spacecraft that recedes with a tenth of the speed of light and whose clock is slow by a half. -/
example : skyOneWay 10 (1 / 10) (1 / 2) 0 = 9 / 2 ∧ HasDerivAt (fun s : ℝ => s / 10) (1 / 10) 1 ∧
    HasDerivAt (fun s : ℝ => s / 2) (1 - 1 / 2) (1 - 1 / 10) ∧ HasDerivAt (fun s : ℝ => 10 * ((s - s / 10) / 2)) (9 / 2) 1 := by
  refine ⟨by unfold skyOneWay; norm_num, ?_, ?_, ?_⟩
  · exact (hasDerivAt_id (1 : ℝ)).div_const 10
  · exact ((hasDerivAt_id _).div_const 2).congr_deriv (by norm_num)
  · exact ((((hasDerivAt_id (1 : ℝ)).sub ((hasDerivAt_id (1 : ℝ)).div_const 10)).div_const 2).const_mul 10).congr_deriv (by norm_num)

example : skyMultiWay 10 2 (1 / 10) (1 / 5) (1 / 2) 0 = 36 / 5 := by
  unfold skyMultiWay
  norm_num

/-- What a clock loses: the potential of the twelve bodies and half the square of the velocity, in units of `c²`, less the
constant of the scale of time. -/
theorem C102_clock (body : Nat → V3) (r v : V3) :
    derpt body r v = ((attracting.map fun i => gravity i / Spec.dist r (body i)).sum + Spec.dist v origin ^ 2 / 2) / 299792.458 ^ 2
      - 1.550520e-8 := by
  unfold derpt gmTable attracting
  simp only [List.zip_cons_cons, List.zip_nil_right, List.map_cons, List.map_nil, List.sum_cons, List.sum_nil, gravity, sub_norm_dist]
  have hv : Spec.dist v origin ^ 2 = v.x ^ 2 + v.y ^ 2 + v.z ^ 2 := by
    unfold Spec.dist origin
    rw [sq_sqrt (by positivity)]
    simp only [sub_zero]
  rw [hv]
  unfold lightSpeed
  norm_num
  ring

/-- Clocks lose more with a greater velocity. -/
example : derpt (fun _ => ⟨1, 0, 0⟩) origin ⟨0, 0, 0⟩ < derpt (fun _ => ⟨1, 0, 0⟩) origin ⟨0, 1, 0⟩ := by
  unfold derpt lightSpeed
  norm_num
  exact div_lt_div_of_pos_right (by linarith) (by norm_num)

/-- A third of the pairs of different bands has no ratio but 0, so that the frequency is 0. -/
theorem C102_turn_false : ¬ ∀ (up down : Band) (f a12 a23 b1 b3 : ℝ), f ≠ 0 → a12 < 1 → a23 < 1 → b1 < 1 → b3 < 1 →
    skyMultiWay f (turnr up down) a12 a23 b1 b3 ≠ 0 := by
  intro h
  apply h .k .x 1 0 0 0 0 <;> norm_num [skyMultiWay, turnr]

/-- With one of the six other pairs it is not. -/
theorem C102_turn_partial (up down : Band) (h : (up, down) ≠ (.s, .k) ∧ (up, down) ≠ (.k, .s) ∧ (up, down) ≠ (.k, .x))
    {f a12 a23 b1 b3 : ℝ} (hf : 0 < f) (h12 : a12 < 1) (h23 : a23 < 1) (h1 : b1 < 1) (h3 : b3 < 1) :
    0 < skyMultiWay f (turnr up down) a12 a23 b1 b3 := by
  have ht : 0 < ((turnr up down : ℚ) : ℝ) := by
    have : 0 < turnr up down := by
      revert h
      cases up <;> cases down <;> simp [turnr]
    exact_mod_cast this
  have h3' : (0 : ℝ) < 1 - b3 := by linarith
  have e : skyMultiWay f (turnr up down) a12 a23 b1 b3 = turnr up down * f * (1 - b1) * (1 - a23) * (1 - a12) / (1 - b3) := by
    unfold skyMultiWay
    field_simp
    ring
  rw [e]
  have : 0 < 1 - a12 := by linarith
  have : 0 < 1 - a23 := by linarith
  have : 0 < 1 - b1 := by linarith
  positivity

example : (Band.x, Band.k) ≠ (.s, .k) ∧ (Band.x, Band.k) ≠ (.k, .s) ∧ (Band.x, Band.k) ≠ (.k, .x) := by decide

/-- The ratios agree with those of the transponder: with the same uplink the X band is 11/3 of the S band, the K band 19/5 of the
X band; an uplink of 221 parts in the S band corresponds to one of 749 in the X band. -/
theorem C102_ratios :
    turnr .s .x = 11 / 3 * turnr .s .s ∧ turnr .x .x = 11 / 3 * turnr .x .s ∧ turnr .x .k = 19 / 5 * turnr .x .x ∧
      221 * turnr .s .s = 749 * turnr .x .s ∧ 221 * turnr .s .s = 240 ∧ turnr .k .k = 14 / 15 ∧
      turnr .s .k = 0 ∧ turnr .k .s = 0 ∧ turnr .k .x = 0 := by
  decide +kernel

example : turnr .s .x = 880 / 221 := by rw [C102_ratios.1]; decide +kernel

end Verif.Cal
