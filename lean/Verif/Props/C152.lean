import Verif.Model.Resolution
import Mathlib.Analysis.Convex.SpecificFunctions.Basic
import Mathlib.Analysis.Calculus.Deriv.MeanValue
import Mathlib.Topology.Order.IntermediateValue

/-!
# C152: the window that C chooses for a resolution has that resolution for the formulas of Python

src/tau/rss_ringoccs_tau_get_window_width.c, rss_ringoccs/tools/rss_ringoccs_local_tools.py.
-/
namespace Verif.Resln
open Real

namespace Spec

/-- What `tmpl_Double_Resolution_Inverse` has to find. -/
def IsInverse (inv : ℝ → ℝ) : Prop := ∀ p, 1 < p → 0 < inv p ∧ inv p / (exp (-inv p) + inv p - 1) = p

end Spec
open Spec

theorem den_pos {b : ℝ} (hb : 0 < b) : 0 < exp (-b) + b - 1 := by
  have := add_one_lt_exp (x := -b) (by linarith)
  linarith

/-- The sign of the derivative of `b²/(exp(-b)+b-1)`. -/
theorem slope_pos {b : ℝ} (hb : 0 < b) : 0 < (b + 2) * exp (-b) + b - 2 := by
  have key : StrictMonoOn (fun x : ℝ => (x + 2) * exp (-x) + x - 2) (Set.Ici 0) := by
    apply strictMonoOn_of_deriv_pos (convex_Ici 0)
    · fun_prop
    · intro x hx
      rw [interior_Ici] at hx
      have hx : 0 < x := hx
      have hd : HasDerivAt (fun x : ℝ => (x + 2) * exp (-x) + x - 2) (1 * exp (-x) + (x + 2) * (exp (-x) * (-1)) + 1) x := by
        have h1 : HasDerivAt (fun x : ℝ => x + 2) 1 x := (hasDerivAt_id x).add_const 2
        have h2 : HasDerivAt (fun x : ℝ => exp (-x)) (exp (-x) * (-1)) x := (hasDerivAt_id x).neg.exp
        exact ((h1.mul h2).add (hasDerivAt_id x)).sub_const 2
      rw [hd.deriv]
      have h3 := add_one_lt_exp (x := x) (by linarith)
      have h4 : exp (-x) * exp x = 1 := by rw [← exp_add]; simp
      have h5 := exp_pos (-x)
      nlinarith
  have := key (Set.mem_Ici.mpr le_rfl) (Set.mem_Ici.mpr hb.le) hb
  simp at this
  linarith

theorem den_lt {b : ℝ} (hb : 0 < b) : exp (-b) + b - 1 < b ^ 2 / 2 := by
  have key : StrictMonoOn (fun x : ℝ => x ^ 2 / 2 - exp (-x) - x + 1) (Set.Ici 0) := by
    apply strictMonoOn_of_deriv_pos (convex_Ici 0)
    · fun_prop
    · intro x hx
      rw [interior_Ici] at hx
      have hx : 0 < x := hx
      have hd : HasDerivAt (fun x : ℝ => x ^ 2 / 2 - exp (-x) - x + 1) (2 * x / 2 - exp (-x) * (-1) - 1) x := by
        have h1 : HasDerivAt (fun x : ℝ => x ^ 2 / 2) (2 * x / 2) x := by simpa using (hasDerivAt_pow 2 x).div_const 2
        have h2 : HasDerivAt (fun x : ℝ => exp (-x)) (exp (-x) * (-1)) x := (hasDerivAt_id x).neg.exp
        exact ((h1.sub h2).sub (hasDerivAt_id x)).add_const 1
      rw [hd.deriv]
      have := den_pos hx
      linarith
  have := key (Set.mem_Ici.mpr le_rfl) (Set.mem_Ici.mpr hb.le) hb
  simp at this
  linarith

/-- `b/(exp(-b)+b-1)` decreases. -/
theorem ratio_lt {a b : ℝ} (ha : 0 < a) (hab : a < b) : b / (exp (-b) + b - 1) < a / (exp (-a) + a - 1) := by
  have hb : 0 < b := ha.trans hab
  rw [div_lt_div_iff₀ (den_pos hb) (den_pos ha)]
  have hc := strictConvexOn_exp.2 (Set.mem_univ (-b)) (Set.mem_univ 0) (by linarith : -b ≠ 0)
    (by positivity : 0 < a / b) (by rw [sub_pos, div_lt_one hb]; exact hab : 0 < 1 - a / b) (by ring)
  have e : a / b * b = a := div_mul_cancel₀ a hb.ne'
  have e1 : (a / b) • (-b) + (1 - a / b) • (0 : ℝ) = -a := by simp only [smul_eq_mul]; linarith
  rw [e1] at hc
  simp only [smul_eq_mul, exp_zero, mul_one] at hc
  have h2 := mul_lt_mul_of_pos_right hc hb
  have e2 : (a / b * exp (-b) + (1 - a / b)) * b = a * exp (-b) + b - a := by
    have : (a / b * exp (-b) + (1 - a / b)) * b = (a / b * b) * exp (-b) + b - a / b * b := by ring
    rw [this, e]
  rw [e2] at h2
  nlinarith

/-- `b²/(exp(-b)+b-1)` increases. -/
theorem square_lt {a b : ℝ} (ha : 0 < a) (hab : a < b) : a ^ 2 / (exp (-a) + a - 1) < b ^ 2 / (exp (-b) + b - 1) := by
  have key : StrictMonoOn (fun x : ℝ => x ^ 2 / (exp (-x) + x - 1)) (Set.Ioi 0) := by
    apply strictMonoOn_of_deriv_pos (convex_Ioi 0)
    · apply ContinuousOn.div (by fun_prop) (by fun_prop)
      intro x hx
      exact (den_pos hx).ne'
    · intro x hx
      rw [interior_Ioi] at hx
      have hx : 0 < x := hx
      have h1 : HasDerivAt (fun x : ℝ => x ^ 2) (2 * x) x := by simpa using hasDerivAt_pow 2 x
      have h2 : HasDerivAt (fun x : ℝ => exp (-x) + x - 1) (exp (-x) * (-1) + 1) x :=
        ((hasDerivAt_id x).neg.exp.add (hasDerivAt_id x)).sub_const 1
      rw [(h1.fun_div h2 (den_pos hx).ne').deriv]
      apply div_pos _ (pow_pos (den_pos hx) 2)
      have := mul_pos hx (slope_pos hx)
      nlinarith
  exact key ha (ha.trans hab) hab

/-- For each resolution above the limit there is exactly one value of `b`. -/
theorem C152_inverse {p : ℝ} (hp : 1 < p) : ∃! b : ℝ, 0 < b ∧ b / (exp (-b) + b - 1) = p := by
  have hp0 : 0 < p := by linarith
  have hp1 : 0 < p - 1 := by linarith
  have h2p : 0 < 2 / p := by positivity
  have hhi : 0 < p / (p - 1) := by positivity
  have hle : 2 / p ≤ p / (p - 1) := by
    rw [div_le_div_iff₀ hp0 hp1]
    nlinarith [sq_nonneg (p - 1)]
  have hc : ContinuousOn (fun x : ℝ => x / (exp (-x) + x - 1)) (Set.Icc (2 / p) (p / (p - 1))) := by
    apply ContinuousOn.div (by fun_prop) (by fun_prop)
    intro x hx
    exact (den_pos (h2p.trans_le hx.1)).ne'
  have hlow : p ≤ 2 / p / (exp (-(2 / p)) + 2 / p - 1) := by
    rw [le_div_iff₀ (den_pos h2p)]
    have := den_lt h2p
    have e : p * ((2 / p) ^ 2 / 2) = 2 / p := by field_simp
    nlinarith
  have hhigh : p / (p - 1) / (exp (-(p / (p - 1))) + p / (p - 1) - 1) ≤ p := by
    rw [div_le_iff₀ (den_pos hhi)]
    have e : p * (p / (p - 1) - 1) = p / (p - 1) := by field_simp; ring
    have := exp_pos (-(p / (p - 1)))
    nlinarith
  obtain ⟨b, hb, e⟩ := intermediate_value_Icc' hle hc ⟨hhigh, hlow⟩
  have hb0 : 0 < b := h2p.trans_le hb.1
  refine ⟨b, ⟨hb0, e⟩, ?_⟩
  rintro a ⟨ha, ea⟩
  rcases lt_trichotomy a b with h | h | h
  · have := ratio_lt ha h
    have e' : b / (exp (-b) + b - 1) = p := e
    linarith
  · exact h
  · have := ratio_lt hb0 h
    have e' : b / (exp (-b) + b - 1) = p := e
    linarith

/-- A resolution at or below the limit belongs to no `b`: no window reaches it. -/
theorem C152_unreachable {p b : ℝ} (hp : p ≤ 1) (hb : 0 < b) : b / (exp (-b) + b - 1) ≠ p := by
  have h : 1 < b / (exp (-b) + b - 1) := by
    rw [one_lt_div (den_pos hb)]
    have : exp (-b) < 1 := by rw [exp_lt_one_iff]; linarith
    linarith
  intro e
  linarith

/-- The parameter of Python is that of C times the ratio of the widths of the windows. -/
theorem bMTR_eq {c f sigma v normeq x : ℝ} (hc : c ≠ 0) (hf : f ≠ 0) (hs : sigma ≠ 0) (hv : v ≠ 0) (inv : ℝ → ℝ) {p : ℝ} (hx : inv p = x) (band : Char) :
    bMTR33 f band sigma v (width normeq inv p (alpha c (wavenumber c f) sigma v)) = normeq / 1.65 * x := by
  have hw : c * wavenumber c f = 2 * π * f := by unfold wavenumber; field_simp
  have ha : alpha c (wavenumber c f) sigma v = (2 * π * f * sigma) ^ 2 / (2 * v) := by
    unfold alpha; rw [hw]; ring
  have hπ := pi_ne_zero
  rw [bMTR33, width, ha, hx]
  field_simp

theorem delta_eq {F w b a : ℝ} (hw : w / 1.65 = b / a) (ha : a ≠ 0) (hb : b ≠ 0) :
    deltaPhi b (deltaW F (w / 1.65)) = a * F ^ 2 * (b / (exp (-b) + b - 1)) := by
  rw [deltaPhi, deltaW, hw]
  field_simp

/-- For the window of an effective width of exactly 1.65 the estimate of Python is the resolution that was asked for. -/
theorem C152_resolution {c f sigma v F res : ℝ} {inv : ℝ → ℝ} (hi : IsInverse inv) (hc : 0 < c) (hf : 0 < f) (hs : 0 < sigma) (hv : 0 < v) (hF : 0 < F)
    (band : Char) (hp : 1 < pVal res (alpha c (wavenumber c f) sigma v) F) :
    let a := alpha c (wavenumber c f) sigma v
    let w := width 1.65 inv (pVal res a F) a
    deltaPhi (bMTR33 f band sigma v w) (deltaW F (w / 1.65)) = res := by
  intro a w
  obtain ⟨h1, h2⟩ : 0 < inv (pVal res a F) ∧ inv (pVal res a F) / (exp (-inv (pVal res a F)) + inv (pVal res a F) - 1) = pVal res a F := hi _ hp
  have hb : bMTR33 f band sigma v w = inv (pVal res a F) := by
    rw [bMTR_eq hc.ne' hf.ne' hs.ne' hv.ne' inv rfl]
    norm_num
  have hw : c * wavenumber c f = 2 * π * f := by unfold wavenumber; field_simp
  have ha : 0 < a := by
    have : 0 < 2 * π * f * sigma := by positivity
    simp only [a, alpha, hw]
    positivity
  rw [hb, delta_eq (a := a) (by simp only [w, width]; field_simp) ha.ne' h1.ne', h2, pVal]
  field_simp

/-- There is such an inverse. -/
theorem inverse_exists : ∃ inv, IsInverse inv := by
  have h : ∀ p : ℝ, ∃ b : ℝ, 1 < p → 0 < b ∧ b / (exp (-b) + b - 1) = p := by
    intro p
    by_cases hp : 1 < p
    · obtain ⟨b, hb, -⟩ := C152_inverse hp
      exact ⟨b, fun _ => hb⟩
    · exact ⟨0, fun h => absurd h hp⟩
  choose inv h using h
  exact ⟨inv, h⟩

theorem demo_alpha : alpha 1 (wavenumber 1 (1 / (2 * π))) 1 1 = 1 / 2 := by
  have := pi_ne_zero
  unfold alpha wavenumber
  field_simp
  norm_num

/-- A resolution of twice the limit. -/
example : ∃ w, deltaPhi (bMTR33 (1 / (2 * π)) 'X' 1 1 w) (deltaW 1 (w / 1.65)) = 1 := by
  obtain ⟨inv, hi⟩ := inverse_exists
  have := pi_pos
  exact ⟨_, C152_resolution (c := 1) hi one_pos (by positivity) one_pos one_pos one_pos 'X' (by rw [demo_alpha]; norm_num [pVal])⟩

/-- For another window it lies between the resolution and that times the ratio of the effective widths.  (Full claim: it is the resolution; see
`C152_window_false`.) -/
theorem C152_near_partial {c f sigma v F res normeq : ℝ} {inv : ℝ → ℝ} (hi : IsInverse inv) (hc : 0 < c) (hf : 0 < f) (hs : 0 < sigma) (hv : 0 < v) (hF : 0 < F)
    (band : Char) (hp : 1 < pVal res (alpha c (wavenumber c f) sigma v) F) (hn : 1.65 < normeq) :
    let a := alpha c (wavenumber c f) sigma v
    let w := width normeq inv (pVal res a F) a
    res * (1.65 / normeq) < deltaPhi (bMTR33 f band sigma v w) (deltaW F (w / 1.65)) ∧
    deltaPhi (bMTR33 f band sigma v w) (deltaW F (w / 1.65)) < res := by
  intro a w
  obtain ⟨h1, h2⟩ : 0 < inv (pVal res a F) ∧ inv (pVal res a F) / (exp (-inv (pVal res a F)) + inv (pVal res a F) - 1) = pVal res a F := hi _ hp
  have hw : c * wavenumber c f = 2 * π * f := by unfold wavenumber; field_simp
  have ha : 0 < a := by
    have : 0 < 2 * π * f * sigma := by positivity
    simp only [a, alpha, hw]
    positivity
  have hn0 : 0 < normeq := by linarith
  have hb := bMTR_eq (normeq := normeq) (p := pVal res a F) hc.ne' hf.ne' hs.ne' hv.ne' inv rfl band
  have hb' : bMTR33 f band sigma v w = normeq / 1.65 * inv (pVal res a F) := hb
  obtain ⟨x, hx⟩ : ∃ x, inv (pVal res a F) = x := ⟨_, rfl⟩
  have h1x : 0 < x := hx ▸ h1
  have hr : res = a * F ^ 2 * (x / (exp (-x) + x - 1)) := by
    rw [← hx, h2]; unfold pVal; field_simp
  have hk : 1 < normeq / 1.65 := by rw [one_lt_div (by norm_num)]; exact hn
  have hlt : x < normeq / 1.65 * x := by nlinarith
  have hbpos : 0 < normeq / 1.65 * x := h1x.trans hlt
  have hd : deltaPhi (bMTR33 f band sigma v w) (deltaW F (w / 1.65)) =
      a * F ^ 2 * (normeq / 1.65 * x / (exp (-(normeq / 1.65 * x)) + normeq / 1.65 * x - 1)) := by
    rw [hb', hx]
    exact delta_eq (by simp only [w, width, hx]; field_simp) ha.ne' hbpos.ne'
  have haF : 0 < a * F ^ 2 := by positivity
  rw [hd]
  constructor
  · have h3 := square_lt h1x hlt
    obtain ⟨y, hy⟩ : ∃ y, normeq / 1.65 * x = y := ⟨_, rfl⟩
    rw [hy] at h3 hbpos ⊢
    have ey : 1.65 / normeq = x / y := by rw [← hy]; field_simp
    rw [hr, ey]
    have e1 : a * F ^ 2 * (x / (exp (-x) + x - 1)) * (x / y) = a * F ^ 2 * (x ^ 2 / (exp (-x) + x - 1)) / y := by ring
    have e2 : a * F ^ 2 * (y / (exp (-y) + y - 1)) = a * F ^ 2 * (y ^ 2 / (exp (-y) + y - 1)) / y := by field_simp
    rw [e1, e2]
    exact div_lt_div_of_pos_right (mul_lt_mul_of_pos_left h3 haF) hbpos
  · rw [hr]
    exact mul_lt_mul_of_pos_left (ratio_lt h1x hlt) haF

/-- A window with an effective width of 1.92: between 0.85 and 1 km for 1 km. -/
example : ∃ w, 0.85 < deltaPhi (bMTR33 (1 / (2 * π)) 'X' 1 1 w) (deltaW 1 (w / 1.65)) ∧ deltaPhi (bMTR33 (1 / (2 * π)) 'X' 1 1 w) (deltaW 1 (w / 1.65)) < 1 := by
  obtain ⟨inv, hi⟩ := inverse_exists
  have := pi_pos
  obtain ⟨h1, h2⟩ := C152_near_partial (c := 1) (res := 1) (normeq := 1.92) hi one_pos (by positivity : 0 < 1 / (2 * π)) one_pos one_pos one_pos 'X'
    (by rw [demo_alpha]; norm_num [pVal]) (by norm_num)
  exact ⟨_, lt_trans (by norm_num) h1, h2⟩

/-- With a wider window Python promises a better resolution than the one that was asked for. -/
theorem C152_window_false {c f sigma v F res normeq : ℝ} {inv : ℝ → ℝ} (hi : IsInverse inv) (hc : 0 < c) (hf : 0 < f) (hs : 0 < sigma) (hv : 0 < v)
    (hF : 0 < F) (band : Char) (hp : 1 < pVal res (alpha c (wavenumber c f) sigma v) F) (hn : 1.65 < normeq) :
    deltaPhi (bMTR33 f band sigma v (width normeq inv (pVal res (alpha c (wavenumber c f) sigma v) F) (alpha c (wavenumber c f) sigma v)))
      (deltaW F (width normeq inv (pVal res (alpha c (wavenumber c f) sigma v) F) (alpha c (wavenumber c f) sigma v) / 1.65)) ≠ res :=
  (C152_near_partial hi hc hf hs hv hF band hp hn).2.ne

/-- The estimate lies above the resolution of the window alone, and above the limit for wide windows, which it approaches. -/
theorem C152_limits {b F Weff : ℝ} (hb : 0 < b) (hF : 0 < F) (hW : 0 < Weff) :
    deltaW F Weff < deltaPhi b (deltaW F Weff) ∧ deltaPhi b (deltaW F Weff) < deltaW F Weff * (1 + b / 2) ∧
    deltaInf b Weff F < deltaPhi b (deltaW F Weff) ∧ (1 < b → deltaPhi b (deltaW F Weff) < deltaInf b Weff F * (b / (b - 1))) := by
  have hd := den_pos hb
  have hw : 0 < deltaW F Weff := by unfold deltaW; positivity
  have hinf : deltaInf b Weff F = deltaW F Weff * (b / 2) := by unfold deltaInf deltaW; ring
  refine ⟨?_, ?_, ?_, ?_⟩
  · unfold deltaPhi
    rw [lt_div_iff₀ hd]
    exact mul_lt_mul_of_pos_left (den_lt hb) hw
  · unfold deltaPhi
    rw [div_lt_iff₀ hd, mul_assoc]
    apply mul_lt_mul_of_pos_left _ hw
    have := slope_pos hb
    nlinarith
  · rw [hinf]
    unfold deltaPhi
    rw [lt_div_iff₀ hd, mul_assoc]
    apply mul_lt_mul_of_pos_left _ hw
    have : exp (-b) < 1 := by rw [exp_lt_one_iff]; linarith
    nlinarith
  · intro h1
    have h10 : 0 < b - 1 := by linarith
    rw [hinf]
    unfold deltaPhi
    rw [div_lt_iff₀ hd, mul_assoc, mul_assoc]
    apply mul_lt_mul_of_pos_left _ hw
    have e : b / 2 * (b / (b - 1)) * (exp (-b) + b - 1) = b ^ 2 / 2 + b ^ 2 / 2 / (b - 1) * exp (-b) := by field_simp; ring
    have : 0 < b ^ 2 / 2 / (b - 1) * exp (-b) := by positivity
    nlinarith

/-- The estimate does not depend on the band that is asked for: `band='S'` gives the value of the frequency in the X band. -/
theorem C152_band_false : ∃ sigma v W, bMTR33 8427222034.34050 'S' sigma v W ≠ bMTR33 (8427222034.34050 * (3 / 11)) 'S' sigma v W := by
  refine ⟨1, 1, 1, ?_⟩
  have h1 := pi_pos
  unfold bMTR33
  have : 0 < π ^ 2 := by positivity
  intro e
  ring_nf at e
  nlinarith

end Verif.Resln
