import Verif.Model.Driver
import Mathlib.Analysis.SpecialFunctions.Complex.Log
import Mathlib.Algebra.BigOperators.Field
import Mathlib.Algebra.Field.GeomSum

/-!
# The discrete Fourier transform and cyclic convolution
-/
namespace Verif

namespace Spec

/-- Entry `i` of a list of complex numbers (0 outside). -/
def entry (l : List ℂ) (i : Nat) : ℂ := l.getD i 0

/-- `Z` is the discrete Fourier transform and its inverse. -/
structure IsDFT (Z : FFTOf ℂ) : Prop where
  fftLen : ∀ l, (Z.fft l).length = l.length
  ifftLen : ∀ l, (Z.ifft l).length = l.length
  fft : ∀ l k, k < l.length → entry (Z.fft l) k =
    ∑ j ∈ Finset.range l.length, entry l j *
      Complex.exp (-(2 * Real.pi * Complex.I * ((j * k : ℤ) / (l.length : ℂ))))
  ifft : ∀ l k, k < l.length → entry (Z.ifft l) k =
    1 / (l.length : ℂ) * ∑ j ∈ Finset.range l.length, entry l j *
      Complex.exp (2 * Real.pi * Complex.I * ((j * k : ℤ) / (l.length : ℂ)))

end Spec
open Spec

/-- The transform exists: the definition itself. -/
noncomputable def trueDFT : FFTOf ℂ where
  fft l := (List.range l.length).map fun k : Nat => ∑ j ∈ Finset.range l.length, entry l j *
      Complex.exp (-(2 * Real.pi * Complex.I * ((j * k : ℤ) / (l.length : ℂ))))
  ifft l := (List.range l.length).map fun k : Nat => 1 / (l.length : ℂ) * ∑ j ∈ Finset.range l.length,
      entry l j * Complex.exp (2 * Real.pi * Complex.I * ((j * k : ℤ) / (l.length : ℂ)))

theorem entry_map {f : Nat → ℂ} {n k : Nat} (h : k < n) : entry ((List.range n).map f) k = f k := by
  simp [entry, List.getD, h]

theorem trueDFT_isDFT : IsDFT trueDFT where
  fftLen l := by simp [trueDFT]
  ifftLen l := by simp [trueDFT]
  fft l k h := by simp only [trueDFT]; rw [entry_map h]
  ifft l k h := by simp only [trueDFT]; rw [entry_map h]

/-- Orthogonality of the characters. -/
theorem root_sum {n : Nat} (hn : 0 < n) (d : ℤ) :
    ∑ m ∈ Finset.range n, Complex.exp (2 * Real.pi * Complex.I * ((m * d : ℤ) / (n : ℂ))) =
      if (n : ℤ) ∣ d then (n : ℂ) else 0 := by
  have hn' : (n : ℂ) ≠ 0 := by exact_mod_cast hn.ne'
  set z : ℂ := Complex.exp (2 * Real.pi * Complex.I * (d / (n : ℂ))) with hz
  have e : ∀ m : Nat, Complex.exp (2 * Real.pi * Complex.I * ((m * d : ℤ) / (n : ℂ))) = z ^ m :=
    fun m => by
      rw [hz, ← Complex.exp_nat_mul]; congr 1; push_cast; ring
  rw [Finset.sum_congr rfl fun m _ => e m]
  have hzn : z ^ n = 1 := by
    rw [hz, ← Complex.exp_nat_mul, Complex.exp_eq_one_iff]
    exact ⟨d, by field_simp⟩
  split
  · rename_i h
    obtain ⟨c, hc⟩ := h
    have : z = 1 := by
      rw [hz, Complex.exp_eq_one_iff]
      exact ⟨c, by rw [hc]; push_cast; field_simp⟩
    simp [this]
  · rename_i h
    have : z ≠ 1 := fun h1 => h <| by
      rw [hz, Complex.exp_eq_one_iff] at h1
      obtain ⟨c, hc⟩ := h1
      have h2 : (2 * Real.pi * Complex.I : ℂ) ≠ 0 := Complex.two_pi_I_ne_zero
      have : (d / (n : ℂ)) = c := by
        apply mul_left_cancel₀ h2; rw [hc]; ring
      have h3 : (d : ℂ) = c * n := by field_simp at this; rw [this]; ring
      exact ⟨c, by have : d = c * n := by exact_mod_cast h3
                   rw [this]; ring⟩
    rw [geom_sum_eq this, hzn, sub_self, zero_div]

/-- The convolution theorem. -/
theorem convolution {Z : FFTOf ℂ} (hZ : IsDFT Z) {a b : List ℂ} {n : Nat} (ha : a.length = n)
    (hb : b.length = n) {k : Nat} (hk : k < n) :
    entry (Z.ifft (List.zipWith (· * ·) (Z.fft a) (Z.fft b))) k =
      ∑ i ∈ Finset.range n, entry a i * entry b ((k + n - i) % n) := by
  have hn : 0 < n := by omega
  have hn' : (n : ℂ) ≠ 0 := by exact_mod_cast hn.ne'
  have hl : (List.zipWith (· * ·) (Z.fft a) (Z.fft b)).length = n := by
    simp [hZ.fftLen, ha, hb]
  rw [hZ.ifft _ _ (by rw [hl]; exact hk), hl]
  have hz : ∀ m ∈ Finset.range n, entry (List.zipWith (· * ·) (Z.fft a) (Z.fft b)) m =
      entry (Z.fft a) m * entry (Z.fft b) m := fun m hm => by
    have hm := Finset.mem_range.1 hm
    simp [entry, List.getD, hZ.fftLen, ha, hb, hm]
  rw [Finset.sum_congr rfl fun m hm => by
    rw [hz m hm, hZ.fft a m (by rw [ha]; exact Finset.mem_range.1 hm),
      hZ.fft b m (by rw [hb]; exact Finset.mem_range.1 hm), ha, hb]]
  have e : ∀ m ∈ Finset.range n,
      (∑ i ∈ Finset.range n, entry a i * Complex.exp (-(2 * Real.pi * Complex.I * ((i * m : ℤ) / (n : ℂ))))) *
      (∑ j ∈ Finset.range n, entry b j * Complex.exp (-(2 * Real.pi * Complex.I * ((j * m : ℤ) / (n : ℂ))))) *
      Complex.exp (2 * Real.pi * Complex.I * ((m * k : ℤ) / (n : ℂ))) =
      ∑ i ∈ Finset.range n, ∑ j ∈ Finset.range n, entry a i * entry b j *
        Complex.exp (2 * Real.pi * Complex.I * ((m * ((k : ℤ) - i - j) : ℤ) / (n : ℂ))) := fun m _ => by
    rw [Finset.sum_mul_sum, Finset.sum_mul]
    refine Finset.sum_congr rfl fun i _ => ?_
    rw [Finset.sum_mul]
    refine Finset.sum_congr rfl fun j _ => ?_
    have : Complex.exp (2 * Real.pi * Complex.I * ((m * ((k : ℤ) - i - j) : ℤ) / (n : ℂ))) =
        Complex.exp (-(2 * Real.pi * Complex.I * ((i * m : ℤ) / (n : ℂ)))) *
        Complex.exp (-(2 * Real.pi * Complex.I * ((j * m : ℤ) / (n : ℂ)))) *
        Complex.exp (2 * Real.pi * Complex.I * ((m * k : ℤ) / (n : ℂ))) := by
      rw [← Complex.exp_add, ← Complex.exp_add]; congr 1; push_cast; ring
    rw [this]; ring
  rw [Finset.sum_congr rfl e, Finset.sum_comm, Finset.mul_sum]
  refine Finset.sum_congr rfl fun i hi => ?_
  have hi := Finset.mem_range.1 hi
  rw [Finset.sum_comm, Finset.mul_sum]
  have e2 : ∀ j ∈ Finset.range n, 1 / (n : ℂ) * ∑ m ∈ Finset.range n, entry a i * entry b j *
        Complex.exp (2 * Real.pi * Complex.I * ((m * ((k : ℤ) - i - j) : ℤ) / (n : ℂ))) =
      if j = (k + n - i) % n then entry a i * entry b j else 0 := fun j hj => by
    have hj := Finset.mem_range.1 hj
    rw [← Finset.mul_sum, root_sum hn]
    have : ((n : ℤ) ∣ (k : ℤ) - i - j) ↔ j = (k + n - i) % n := by
      constructor
      · rintro ⟨c, hc⟩
        have h1 : c = 0 ∨ c = -1 := by
          have : (n : ℤ) * c < n := by omega
          have h3 : -2 * (n : ℤ) < n * c := by omega
          have h4 : c < 1 := by by_contra hh; nlinarith
          have h5 : -2 < c := by by_contra hh; nlinarith
          omega
        rcases h1 with rfl | rfl
        · rw [show k + n - i = j + n by omega, Nat.add_mod_right, Nat.mod_eq_of_lt hj]
        · rw [show k + n - i = j by omega, Nat.mod_eq_of_lt hj]
      · intro h
        have := Nat.div_add_mod (k + n - i) n
        rw [← h] at this
        refine ⟨((k + n - i) / n : Nat) - 1, ?_⟩
        have h2 : ((k : ℤ) + n - i) = n * (((k + n - i) / n : Nat) : ℤ) + j := by
          rw [← Nat.cast_mul]; omega
        linarith
    simp only [this]
    split
    · field_simp
    · simp
  rw [Finset.sum_congr rfl e2, Finset.sum_ite_eq' ]
  rw [if_pos (Finset.mem_range.2 (Nat.mod_lt _ hn))]

end Verif
