import Verif.Model.UranusIQ
import Mathlib.Tactic.Linarith
import Mathlib.Tactic.FieldSimp
import Mathlib.Tactic.NormNum
import Mathlib.Data.List.GetD

/-!
# Removal of the frequency offset in the pipeline of Uranus (C218, C219)
-/
namespace Verif.Cal
open Verif.Rsr Classical

namespace Spec

/-- A rule for integrals that is right for constants. -/
def ConstExact (simps : List ℝ → List ℝ → ℝ) : Prop :=
  ∀ (b x : ℝ) (xs : List ℝ), simps ((x :: xs).map fun _ => b) (x :: xs) = b * ((x :: xs).getLast (List.cons_ne_nil x xs) - x)

/-- The samples of a signal with the frequency `b` (Hz) and the amplitude `a`, with the phase 0 at `t0`. -/
noncomputable def uTone (a : ℂ) (b t0 t : ℝ) : ℂ := a * Complex.exp (Complex.I * ((2 * Real.pi * b * (t - t0) : ℝ) : ℂ))

end Spec
open Verif.Cal.Spec

/-- The rule of trapezoids is right for constants. -/
noncomputable def trapz : List ℝ → List ℝ → ℝ
  | y :: y' :: ys, x :: x' :: xs => (y + y') / 2 * (x' - x) + trapz (y' :: ys) (x' :: xs)
  | _, _ => 0

theorem trapz_exact : ConstExact trapz := by
  intro b x xs
  induction xs generalizing x with
  | nil => simp [trapz]
  | cons x' xs ih =>
    have := ih x'
    simp only [List.map_cons] at this ⊢
    rw [trapz, this, List.getLast_cons (List.cons_ne_nil x' xs)]
    ring

/-- Interpolation in values that lie on a line gives the line. -/
theorem interpR_line {x y : List ℝ} {c e v : ℝ} (hx : x.Pairwise (· < ·)) (hn : x ≠ []) (hy : ∀ i < x.length, y.getD i 0 = c * x.getD i 0 + e)
    (h0 : x.getD 0 0 ≤ v) (h1 : v ≤ x.getD (x.length - 1) 0) : interpR x y v = c * v + e := by
  have hpos : 0 < x.length := List.length_pos_iff.mpr hn
  have hle : x.countP (fun t => decide (t ≤ v)) ≤ x.length := List.countP_le_length
  simp only [interpR, if_neg (not_lt.mpr h1), if_neg (not_lt.mpr h0)]
  split
  · rename_i hj
    rw [hj, hy _ (by omega)]
    have hc : 0 < x.countP (fun t => decide (t ≤ v)) := by
      rw [List.countP_pos_iff]
      refine ⟨x.getD 0 0, ?_, by simpa using h0⟩
      rw [List.getD_eq_getElem _ _ hpos]
      exact List.getElem_mem _
    have hall := List.countP_eq_length.mp (show x.countP (fun t => decide (t ≤ v)) = x.length by omega)
    have : x.getD (x.length - 1) 0 ≤ v := by
      rw [List.getD_eq_getElem _ _ (by omega : x.length - 1 < x.length)]
      simpa using hall _ (List.getElem_mem _)
    rw [le_antisymm this h1]
  · rename_i hj
    rw [hy _ (by omega), hy _ (by omega)]
    have hlt : x.getD (x.countP (fun t => decide (t ≤ v)) - 1) 0 < x.getD (x.countP (fun t => decide (t ≤ v)) - 1 + 1) 0 := by
      rw [List.getD_eq_getElem _ _ (by omega : x.countP (fun t => decide (t ≤ v)) - 1 < x.length),
        List.getD_eq_getElem _ _ (by omega : x.countP (fun t => decide (t ≤ v)) - 1 + 1 < x.length)]
      exact List.pairwise_iff_getElem.mp hx _ _ _ _ (by omega)
    generalize x.getD (x.countP (fun t => decide (t ≤ v)) - 1) 0 = p at *
    generalize x.getD (x.countP (fun t => decide (t ≤ v)) - 1 + 1) 0 = q at *
    have : q - p ≠ 0 := by linarith
    field_simp
    ring

/-- After the last point the last value is held. -/
theorem interpR_after {x y : List ℝ} {v : ℝ} (h : x.getD (x.length - 1) 0 < v) : interpR x y v = y.getD (x.length - 1) 0 := by
  simp only [interpR, if_pos h]

theorem interpR_const {x : List ℝ} {b v : ℝ} : interpR x (x.map fun _ => b) v = b ∨ x = [] := by
  by_cases hn : x = []
  · exact .inr hn
  · left
    have hpos : 0 < x.length := List.length_pos_iff.mpr hn
    have hle : x.countP (fun t => decide (t ≤ v)) ≤ x.length := List.countP_le_length
    have hg : ∀ i < x.length, (x.map fun _ => b).getD i 0 = b := fun i hi => by
      rw [List.getD_eq_getElem _ _ (by simpa using hi), List.getElem_map]
    simp only [interpR]
    split
    · exact hg _ (by omega)
    · split
      · exact hg _ hpos
      · split
        · exact hg _ (by omega)
        · rw [hg _ (by omega), hg _ (by omega)]
          ring

theorem uGrid_get {f : List ℝ} {i : Nat} (h : i < (uGrid f).length) : (uGrid f).getD i 0 = f.getD 0 0 + 0.01 * (i : ℝ) := by
  rw [List.getD_eq_getElem _ _ h]
  simp [uGrid]

theorem uGrid_sorted (f : List ℝ) : (uGrid f).Pairwise (· < ·) := by
  rw [uGrid, List.pairwise_map]
  refine List.pairwise_lt_range.imp fun {i j} h => ?_
  have : (i : ℝ) < j := by exact_mod_cast h
  norm_num
  linarith

/-- The phase that is removed when the offset is the same at all times. -/
theorem uDetrend_const {simps : List ℝ → List ℝ → ℝ} (hs : ConstExact simps) {f : List ℝ} {b : ℝ} (hn : uGrid f ≠ []) (hf : f ≠ []) :
    ∃ rad, uDetrend simps f (f.map fun _ => b) = .ok (interpR (uGrid f) rad) ∧
      ∀ i < (uGrid f).length, rad.getD i 0 = 2 * Real.pi * b * (uGrid f).getD i 0 + (-(2 * Real.pi * b * f.getD 0 0) - Real.pi) := by
  have hl : f.length ≠ 0 := fun h => hf (List.length_eq_zero_iff.mp h)
  have hg : (uGrid f).length ≠ 0 := fun h => hn (List.length_eq_zero_iff.mp h)
  have hoff : (uGrid f).map (interpR f (f.map fun _ => b)) = (uGrid f).map fun _ => b := by
    apply List.map_congr_left
    intro v _
    exact interpR_const.resolve_right hf
  simp only [uDetrend, if_neg hl, List.length_map, ne_eq, not_true_eq_false, if_false, if_neg hg, hoff]
  refine ⟨_, rfl, fun i hi => ?_⟩
  rw [List.getD_eq_getElem _ _ (by simpa using hi)]
  simp only [List.getElem_map, List.getElem_range]
  rw [← List.map_take]
  obtain ⟨x, xs, hx⟩ : ∃ x xs, (uGrid f).take (i + 1) = x :: xs := by
    cases h : (uGrid f).take (i + 1) with
    | nil =>
      have := congrArg List.length h
      simp only [List.length_take, List.length_nil] at this
      omega
    | cons x xs => exact ⟨x, xs, rfl⟩
  rw [hx, hs]
  have h1 : x = (uGrid f).getD 0 0 := by
    have := congrArg (fun l => l.getD 0 0) hx
    simp only [List.getD_cons_zero] at this
    rw [← this, List.getD_eq_getElem?_getD, List.getElem?_take_of_lt (by omega), ← List.getD_eq_getElem?_getD]
  have h2 : (x :: xs).getLast (List.cons_ne_nil x xs) = (uGrid f).getD i 0 := by
    have hlen : (x :: xs).length = i + 1 := by rw [← hx, List.length_take]; omega
    rw [List.getLast_eq_getElem, ← List.getD_eq_getElem _ 0, hlen, ← hx, Nat.add_sub_cancel, List.getD_eq_getElem?_getD, List.getElem?_take_of_lt (by omega),
      ← List.getD_eq_getElem?_getD]
  rw [h2, h1, uGrid_get hi, uGrid_get (by omega)]
  push_cast
  ring

theorem exp_half : Complex.exp (Complex.I * (Real.pi : ℂ)) = -1 := by rw [mul_comm]; exact Complex.exp_pi_mul_I

/-- The power of the signal stays the same. -/
theorem C218_power {simps : List ℝ → List ℝ → ℝ} {spm f off : List ℝ} {iq r : List ℂ} (h : uCorrectIQ simps spm iq f off = .ok r) :
    r.map (fun z => ‖z‖) = iq.map fun z => ‖z‖ := by
  cases hd : uDetrend simps f off with
  | error e => simp only [uCorrectIQ, hd, bind, Except.bind] at h; cases h
  | ok psi =>
    simp only [uCorrectIQ, hd, bind, Except.bind] at h
    split at h
    · rename_i hl
      cases h
      have : ∀ (s : List ℝ) (q : List ℂ), s.length = q.length →
          (List.zipWith (fun t z => z * Complex.exp (-Complex.I * psi t)) s q).map (fun z => ‖z‖) = q.map fun z => ‖z‖ := by
        intro s
        induction s with
        | nil => intro q hq; cases q <;> simp_all
        | cons t s ih =>
          intro q hq
          cases q with
          | nil => simp at hq
          | cons z q =>
            have e : ‖Complex.exp (-Complex.I * (psi t : ℂ))‖ = 1 := by
              rw [show -Complex.I * (psi t : ℂ) = ((-psi t : ℝ) : ℂ) * Complex.I by push_cast; ring]
              exact Complex.norm_exp_ofReal_mul_I _
            simp only [List.zipWith_cons_cons, List.map_cons, norm_mul, e, mul_one]
            rw [ih q (by simpa using hq)]
      exact this spm iq hl
    · cases h

/-- A signal of the frequency of the offset becomes constant, with the opposite sign, for all times from the first one to the last point of the grid (see `C218_reach`). -/
theorem C218_constant {simps : List ℝ → List ℝ → ℝ} (hs : ConstExact simps) {f : List ℝ} {a : ℂ} {b : ℝ} {spm : List ℝ} (hf : f ≠ []) (hn : uGrid f ≠ [])
    (hspm : ∀ t ∈ spm, f.getD 0 0 ≤ t ∧ t ≤ f.getD 0 0 + 0.01 * ((uGrid f).length - 1 : ℝ)) :
    uCorrectIQ simps spm (spm.map (uTone a b (f.getD 0 0))) f (f.map fun _ => b) = .ok (spm.map fun _ => -a) := by
  obtain ⟨rad, h1, h2⟩ := uDetrend_const hs (b := b) hn hf
  simp only [uCorrectIQ, h1, bind, Except.bind, List.length_map, if_true, pure, Except.pure, Except.ok.injEq]
  have hpos : 0 < (uGrid f).length := List.length_pos_iff.mpr hn
  rw [List.zipWith_map_right, List.zipWith_self]
  apply List.map_congr_left
  intro t ht
  obtain ⟨l, u⟩ := hspm t ht
  rw [interpR_line (uGrid_sorted f) hn h2 (by rw [uGrid_get hpos]; simpa using l)
    (by rw [uGrid_get (by omega)]; rw [Nat.cast_sub (by omega)]; simpa using u)]
  rw [uTone, mul_assoc, ← Complex.exp_add, show Complex.I * ((2 * Real.pi * b * (t - f.getD 0 0) : ℝ) : ℂ) +
    -Complex.I * ((2 * Real.pi * b * t + (-(2 * Real.pi * b * f.getD 0 0) - Real.pi) : ℝ) : ℂ) = Complex.I * (Real.pi : ℂ) by push_cast; ring, exp_half]
  ring

/-- How far the grid goes. -/
theorem uGrid_length (f : List ℝ) : (uGrid f).length = (roundR ((f.getD (f.length - 1) 0 - f.getD 0 0) / 0.01)).toNat := by simp [uGrid]

theorem roundR_ge (x : ℝ) : x - 1 / 2 ≤ (roundR x : ℝ) := by
  unfold roundR
  split
  · rename_i h
    have := Int.self_sub_floor x
    split
    · linarith
    · push_cast; linarith
  · have := Int.lt_floor_add_one (x + 1 / 2)
    linarith

/-- The last point of the grid is at most 0.015 s before the last time. -/
theorem C218_reach {f : List ℝ} (hn : uGrid f ≠ []) : f.getD (f.length - 1) 0 - 0.015 ≤ f.getD 0 0 + 0.01 * ((uGrid f).length - 1 : ℝ) := by
  have h1 : 0 < (roundR ((f.getD (f.length - 1) 0 - f.getD 0 0) / 0.01)).toNat := by
    rw [← uGrid_length]; exact List.length_pos_iff.mpr hn
  have h2 := roundR_ge ((f.getD (f.length - 1) 0 - f.getD 0 0) / 0.01)
  have h3 : (((roundR ((f.getD (f.length - 1) 0 - f.getD 0 0) / 0.01)).toNat : ℤ) : ℝ) = (roundR ((f.getD (f.length - 1) 0 - f.getD 0 0) / 0.01) : ℝ) := by
    rw [Int.toNat_of_nonneg (by omega)]
  rw [uGrid_length, ← Int.cast_natCast, h3]
  generalize (roundR ((f.getD (f.length - 1) 0 - f.getD 0 0) / 0.01) : ℝ) = r at *
  have h4 : (f.getD (f.length - 1) 0 - f.getD 0 0) ≤ 0.01 * (r + 1 / 2) := by
    have : (f.getD (f.length - 1) 0 - f.getD 0 0) / 0.01 ≤ r + 1 / 2 := by linarith
    rw [div_le_iff₀ (by norm_num)] at this
    linarith
  norm_num at h4 ⊢
  linarith

theorem grid_one : (uGrid [0, 1]).length = 100 := by
  rw [uGrid_length]
  have : (([0, 1] : List ℝ).getD (([0, 1] : List ℝ).length - 1) 0 - ([0, 1] : List ℝ).getD 0 0) / 0.01 = ((100 : ℤ) : ℝ) := by
    norm_num
  rw [this, roundR, Int.fract_intCast, if_neg (by norm_num)]
  have : ⌊((100 : ℤ) : ℝ) + 1 / 2⌋ = 100 := by rw [Int.floor_eq_iff]; norm_num
  rw [this]; rfl

theorem grid_one_ne : uGrid [0, 1] ≠ [] := fun h => by simpa [h] using grid_one

example : ([0, 1] : List ℝ).getD 1 0 - 0.015 ≤ ([0, 1] : List ℝ).getD 0 0 + 0.01 * ((uGrid [0, 1]).length - 1 : ℝ) := C218_reach grid_one_ne

/-- The example: an offset of 50 Hz during one second, removed from a signal of 50 Hz. -/
example : uCorrectIQ trapz [0, 1 / 4, 1 / 2] ([0, 1 / 4, 1 / 2].map (uTone 2 50 0)) [0, 1] [50, 50] = .ok [-2, -2, -2] := by
  have := C218_constant (a := 2) (b := 50) (spm := [0, 1 / 4, 1 / 2]) trapz_exact (f := [0, 1]) (by simp) grid_one_ne
    (by intro t ht; rw [grid_one]; simp only [List.mem_cons, List.not_mem_nil, or_false] at ht; rcases ht with rfl | rfl | rfl <;> norm_num)
  simpa using this

/-- After the last point of the grid the signal keeps its frequency; up to there it is constant (`C218_constant`).  (Full claim: it is constant for all times of the fit; see
`C219_end_false`.) -/
theorem C219_end_partial {simps : List ℝ → List ℝ → ℝ} (hs : ConstExact simps) {f : List ℝ} {b t : ℝ} (hf : f ≠ []) (hn : uGrid f ≠ [])
    (ht : f.getD 0 0 + 0.01 * ((uGrid f).length - 1 : ℝ) < t) :
    uCorrectIQ simps [t] [uTone 1 b (f.getD 0 0) t] f (f.map fun _ => b) = .ok [-uTone 1 b (f.getD 0 0 + 0.01 * ((uGrid f).length - 1 : ℝ)) t] := by
  obtain ⟨rad, h1, h2⟩ := uDetrend_const hs (b := b) hn hf
  have hpos : 0 < (uGrid f).length := List.length_pos_iff.mpr hn
  have hlast : (uGrid f).getD ((uGrid f).length - 1) 0 = f.getD 0 0 + 0.01 * ((uGrid f).length - 1 : ℝ) := by
    rw [uGrid_get (by omega), Nat.cast_sub (by omega), Nat.cast_one]
  simp only [uCorrectIQ, h1, bind, Except.bind, List.length_cons, List.length_nil, if_true, pure, Except.pure, Except.ok.injEq, List.zipWith_cons_cons, List.zipWith_nil_left]
  rw [interpR_after (by rw [hlast]; exact ht), h2 _ (by omega), hlast]
  congr 1
  rw [uTone, uTone, mul_assoc, ← Complex.exp_add, one_mul, one_mul, ← neg_one_mul (Complex.exp _)]
  conv_rhs => rw [← exp_half, ← Complex.exp_add]
  congr 1
  push_cast
  ring

example : uCorrectIQ trapz [1] [uTone 1 50 0 1] [0, 1] [50, 50] = .ok [-uTone 1 50 (0 + 0.01 * ((100 : Nat) - 1 : ℝ)) 1] := by
  have := C219_end_partial (b := 50) (t := 1) trapz_exact (f := [0, 1]) (by simp) grid_one_ne (by rw [grid_one]; norm_num)
  rw [grid_one] at this
  simpa using this

/-- At the last time the signal has the other sign: the phase is not integrated beyond the last point of the grid, 0.01 s before. -/
theorem C219_end_false : ¬ ∀ (simps : List ℝ → List ℝ → ℝ), ConstExact simps → ∀ (f : List ℝ) (b : ℝ) (spm : List ℝ), f ≠ [] → uGrid f ≠ [] →
    (∀ t ∈ spm, f.getD 0 0 ≤ t ∧ t ≤ f.getD (f.length - 1) 0) →
    uCorrectIQ simps spm (spm.map (uTone 1 b (f.getD 0 0))) f (f.map fun _ => b) = .ok (spm.map fun _ => -1) := by
  intro h
  have h1 := h trapz trapz_exact [0, 1] 50 [1] (by simp) grid_one_ne (by simp)
  have h2 := C219_end_partial (b := 50) (t := 1) trapz_exact (f := [0, 1]) (by simp) grid_one_ne (by rw [grid_one]; norm_num)
  simp only [List.map_cons, List.map_nil] at h1 h2
  rw [h1, grid_one] at h2
  simp only [Except.ok.injEq, List.cons.injEq, neg_inj, and_true] at h2
  have e : uTone 1 50 (([0, 1] : List ℝ).getD 0 0 + 0.01 * ((100 : Nat) - 1 : ℝ)) 1 = -1 := by
    rw [uTone, one_mul, ← exp_half]
    congr 3
    norm_num
    ring
  rw [e] at h2
  norm_num at h2

end Verif.Cal
