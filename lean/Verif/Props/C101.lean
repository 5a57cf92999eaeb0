import Verif.Model.SkyFreq
import Verif.Spec.SkyFreq

/-!
# C101: rate of change of the light time
-/
namespace Verif.Cal
open Real Verif.Geo Verif.Cal.Spec Filter Topology

theorem dist_comm' (u v : V3) : Spec.dist u v = Spec.dist v u := by
  unfold Spec.dist
  congr 1
  ring

theorem norm_dist (u : V3) : u.norm = Spec.dist u origin := by
  unfold V3.norm Spec.dist V3.dot origin
  congr 1
  simp only
  ring

theorem sub_norm_dist (u v : V3) : (v.sub u).norm = Spec.dist u v := by
  unfold V3.norm Spec.dist V3.dot V3.sub
  congr 1
  simp only
  ring

/-- The distance of two moving points changes with the part of the velocity along the line of sight. -/
theorem dist_deriv {p q : ℝ → V3} {v w : V3} {t : ℝ} (hp : Moves p v t) (hq : Moves q w t) (h : Spec.dist (p t) (q t) ≠ 0) :
    HasDerivAt (fun s => Spec.dist (p s) (q s)) (((q t).sub (p t)).hat.dot (w.sub v)) t := by
  have hne : ((p t).x - (q t).x) ^ 2 + ((p t).y - (q t).y) ^ 2 + ((p t).z - (q t).z) ^ 2 ≠ 0 := by
    intro e
    apply h
    unfold Spec.dist
    rw [e, sqrt_zero]
  have h1 := ((((hp.x.sub hq.x).pow 2).add ((hp.y.sub hq.y).pow 2)).add ((hp.z.sub hq.z).pow 2)).sqrt hne
  refine h1.congr_deriv ?_
  unfold V3.hat
  rw [sub_norm_dist]
  unfold V3.smul V3.sub V3.dot Spec.dist at *
  simp only [Pi.sub_apply, Pi.pow_apply, Pi.add_apply] at *
  field_simp
  ring

theorem moves_const (u : V3) (t : ℝ) : Moves (fun _ => u) ⟨0, 0, 0⟩ t := ⟨hasDerivAt_const _ _, hasDerivAt_const _ _, hasDerivAt_const _ _⟩

theorem moves_comp {p : ℝ → V3} {v : V3} {f : ℝ → ℝ} {a t : ℝ} (hp : Moves p v (f t)) (hf : HasDerivAt f a t) :
    Moves (fun s => p (f s)) (v.smul a) t :=
  ⟨(hp.x.comp t hf).congr_deriv (mul_comm _ _), (hp.y.comp t hf).congr_deriv (mul_comm _ _), (hp.z.comp t hf).congr_deriv (mul_comm _ _)⟩

/-- Rate of change of the light time for two moving points. -/
noncomputable def lightRate (u v w z : V3) : ℝ :=
  (w.sub u).hat.dot (z.sub v) / lightSpeed +
    ltFac * ((u.hat.dot v + w.hat.dot z + (w.sub u).hat.dot (z.sub v)) / (u.norm + w.norm + (w.sub u).norm) -
      (u.hat.dot v + w.hat.dot z - (w.sub u).hat.dot (z.sub v)) / (u.norm + w.norm - (w.sub u).norm))

theorem origin_deriv {p : ℝ → V3} {v : V3} {t : ℝ} (hp : Moves p v t) (h : Spec.dist (p t) origin ≠ 0) :
    HasDerivAt (fun s => Spec.dist (p s) origin) ((p t).hat.dot v) t := by
  have := dist_deriv (moves_const origin t) hp (by rwa [dist_comm'])
  simp only [dist_comm' origin] at this
  refine this.congr_deriv ?_
  unfold V3.hat V3.norm V3.smul V3.sub V3.dot origin
  simp only [sub_zero]

theorem light_deriv {p q : ℝ → V3} {v w : V3} {t : ℝ} (hp : Moves p v t) (hq : Moves q w t) (h0 : Spec.dist (p t) (q t) ≠ 0)
    (h1 : Spec.dist (p t) origin ≠ 0) (h2 : Spec.dist (q t) origin ≠ 0)
    (h3 : Spec.dist (p t) (q t) < Spec.dist (p t) origin + Spec.dist (q t) origin) :
    HasDerivAt (fun s => lightTime lightSpeed ltFac (p s) (q s)) (lightRate (p t) v (q t) w) t := by
  have hn : 0 ≤ Spec.dist (p t) (q t) := sqrt_nonneg _
  have e0 := dist_deriv hp hq h0
  have e1 := origin_deriv hp h1
  have e2 := origin_deriv hq h2
  have a1 := ((e1.add e2).add e0).log (by simp only [Pi.add_apply]; linarith)
  have a2 := ((e1.add e2).sub e0).log (by simp only [Pi.add_apply, Pi.sub_apply]; linarith)
  have a3 := (e0.div_const lightSpeed).add ((a1.sub a2).const_mul ltFac)
  have ev : (fun s => lightTime lightSpeed ltFac (p s) (q s)) =ᶠ[𝓝 t] fun s => Spec.dist (p s) (q s) / lightSpeed + ltFac *
      (log (Spec.dist (p s) origin + Spec.dist (q s) origin + Spec.dist (p s) (q s)) -
        log (Spec.dist (p s) origin + Spec.dist (q s) origin - Spec.dist (p s) (q s))) := by
    have c1 := ((e1.add e2).sub e0).continuousAt.eventually (lt_mem_nhds (show (0 : ℝ) < Spec.dist (p t) origin + Spec.dist (q t) origin - Spec.dist (p t) (q t) by linarith))
    filter_upwards [c1] with s hs
    have hs : 0 < Spec.dist (p s) origin + Spec.dist (q s) origin - Spec.dist (p s) (q s) := hs
    have hn : 0 ≤ Spec.dist (p s) (q s) := sqrt_nonneg _
    unfold lightTime
    rw [log_div (by linarith) hs.ne']
  refine (a3.congr_of_eventuallyEq ev).congr_deriv ?_
  unfold lightRate
  rw [norm_dist, norm_dist, sub_norm_dist]
  simp only [Pi.add_apply, Pi.sub_apply]

theorem dot_smul' (u v : V3) (a : ℝ) : u.dot (v.smul a) = a * u.dot v := by
  unfold V3.dot V3.smul
  ring

theorem dot_sub' (u v w : V3) : u.dot (v.sub w) = u.dot v - u.dot w := by
  unfold V3.dot V3.sub
  ring

theorem dot_zero' (u : V3) : u.dot ⟨0, 0, 0⟩ = 0 := by
  unfold V3.dot
  ring

/-- `derlt` is the rate at which the time of the light that is received changes: if the time `lt s` of the light received at every
`s` solves the light-time equation for the moving sender and receiver, its derivative is `derlt`.  `d`: rate of the light time for
a receiver at rest. -/
theorem C101_rate {p q : ℝ → V3} {v w : V3} {lt : ℝ → ℝ} {a d t : ℝ} (hp : Moves p v (t - lt t)) (hq : Moves q w t)
    (hl : HasDerivAt lt a t) (heq : ∀ᶠ s in 𝓝 t, lt s = lightTime lightSpeed ltFac (p (s - lt s)) (q s))
    (h0 : Spec.dist (p (t - lt t)) (q t) ≠ 0) (h1 : Spec.dist (p (t - lt t)) origin ≠ 0) (h2 : Spec.dist (q t) origin ≠ 0)
    (h3 : Spec.dist (p (t - lt t)) (q t) < Spec.dist (p (t - lt t)) origin + Spec.dist (q t) origin)
    (hd : HasDerivAt (fun s => lightTime lightSpeed ltFac (p s) (q t)) d (t - lt t)) (hd1 : d ≠ -1) :
    derlt (p (t - lt t)) v (q t) w = a := by
  have hf : HasDerivAt (fun s => s - lt s) (1 - a) t := (hasDerivAt_id t).sub hl
  have b1 := light_deriv (moves_comp (f := fun s => s - lt s) hp hf) hq h0 h1 h2 h3
  have e1 : a = lightRate (p (t - lt t)) (v.smul (1 - a)) (q t) w := hl.unique (b1.congr_of_eventuallyEq heq)
  have e2 : d = lightRate (p (t - lt t)) v (q t) ⟨0, 0, 0⟩ := hd.unique (light_deriv hp (moves_const (q t) (t - lt t)) h0 h1 h2 h3)
  generalize p (t - lt t) = r1 at *
  generalize q t = r2 at *
  unfold lightRate at e1 e2
  simp only [dot_sub', dot_smul', dot_zero'] at e1 e2
  unfold derlt
  simp only
  have hden : ((r1.hat.dot v + -(r2.sub r1).hat.dot v) / (r1.norm + r2.norm + (r2.sub r1).norm) -
      (r1.hat.dot v - -(r2.sub r1).hat.dot v) / (r1.norm + r2.norm - (r2.sub r1).norm)) * ltFac +
        -(r2.sub r1).hat.dot v / lightSpeed + 1 = d + 1 := by
    rw [e2]
    ring
  rw [hden, div_eq_iff (by intro e; apply hd1; linarith)]
  rw [e2]
  generalize hA : r1.hat.dot v = A at *
  generalize hB : (r2.sub r1).hat.dot v = B at *
  generalize hC : r2.hat.dot w = C at *
  generalize hD : (r2.sub r1).hat.dot w = D at *
  generalize r1.norm + r2.norm + (r2.sub r1).norm = X at *
  generalize r1.norm + r2.norm - (r2.sub r1).norm = Y at *
  linear_combination -e1

/-- A sender at rest and a receiver that moves away from it. -/
example : ∃ (p q : ℝ → V3) (v w : V3) (lt : ℝ → ℝ) (a d t : ℝ), w.y = 10 ∧ Moves p v (t - lt t) ∧ Moves q w t ∧
    HasDerivAt lt a t ∧ (∀ᶠ s in 𝓝 t, lt s = lightTime lightSpeed ltFac (p (s - lt s)) (q s)) ∧ Spec.dist (p (t - lt t)) (q t) ≠ 0 ∧
    Spec.dist (p (t - lt t)) origin ≠ 0 ∧ Spec.dist (q t) origin ≠ 0 ∧
    Spec.dist (p (t - lt t)) (q t) < Spec.dist (p (t - lt t)) origin + Spec.dist (q t) origin ∧
    HasDerivAt (fun s => lightTime lightSpeed ltFac (p s) (q t)) d (t - lt t) ∧ d ≠ -1 := by
  have m1 : Moves (fun _ => (⟨3, 0, 0⟩ : V3)) ⟨0, 0, 0⟩ 0 := moves_const _ _
  have m2 : Moves (fun s => (⟨0, 4 + 10 * s, 0⟩ : V3)) ⟨0, 10, 0⟩ 0 :=
    ⟨hasDerivAt_const _ _, (((hasDerivAt_id (0 : ℝ)).const_mul 10).const_add 4).congr_deriv (by norm_num), hasDerivAt_const _ _⟩
  have d0 : Spec.dist ⟨3, 0, 0⟩ ⟨0, 4 + 10 * (0 : ℝ), 0⟩ = 5 := by
    unfold Spec.dist
    norm_num
    rw [show (25 : ℝ) = 5 ^ 2 by norm_num, sqrt_sq (by norm_num)]
  have d1 : Spec.dist ⟨3, 0, 0⟩ origin = 3 := by
    unfold Spec.dist origin
    norm_num
    rw [show (9 : ℝ) = 3 ^ 2 by norm_num, sqrt_sq (by norm_num)]
  have d2 : Spec.dist ⟨0, 4 + 10 * (0 : ℝ), 0⟩ origin = 4 := by
    unfold Spec.dist origin
    norm_num
    rw [show (16 : ℝ) = 4 ^ 2 by norm_num, sqrt_sq (by norm_num)]
  have h0 : Spec.dist ⟨3, 0, 0⟩ ⟨0, 4 + 10 * (0 : ℝ), 0⟩ ≠ 0 := by rw [d0]; norm_num
  have h1 : Spec.dist ⟨3, 0, 0⟩ origin ≠ 0 := by rw [d1]; norm_num
  have h2 : Spec.dist ⟨0, 4 + 10 * (0 : ℝ), 0⟩ origin ≠ 0 := by rw [d2]; norm_num
  have h3 : Spec.dist ⟨3, 0, 0⟩ ⟨0, 4 + 10 * (0 : ℝ), 0⟩ < Spec.dist ⟨3, 0, 0⟩ origin + Spec.dist ⟨0, 4 + 10 * (0 : ℝ), 0⟩ origin := by
    rw [d0, d1, d2]; norm_num
  exact ⟨fun _ => ⟨3, 0, 0⟩, fun s => ⟨0, 4 + 10 * s, 0⟩, ⟨0, 0, 0⟩, ⟨0, 10, 0⟩, fun s => lightTime lightSpeed ltFac ⟨3, 0, 0⟩ ⟨0, 4 + 10 * s, 0⟩,
    _, 0, 0, rfl, moves_const _ _, m2, light_deriv m1 m2 h0 h1 h2 h3, Eventually.of_forall fun s => rfl, h0, h1, h2, h3,
    hasDerivAt_const _ _, by norm_num⟩

/-- The factor of the delay is that of the mass of the Sun. -/
theorem C101_factor : |ltFac * lightSpeed ^ 3 - 2 * 1.3271244002331e11| ≤ 1e-1 := by
  unfold ltFac lightSpeed
  rw [abs_le]
  constructor <;> norm_num

end Verif.Cal
