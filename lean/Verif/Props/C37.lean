import Verif.Proofs.Dft
import Verif.Proofs.Formula
import Verif.Proofs.Frame
import Verif.Proofs.Safe
import Verif.Props.C21
import Verif.Props.C33

/-!
# C37 The FFT method: length, bounds, and the sum that it computes
-/
namespace Verif
open Spec

/-! ### The FFT length -/

theorem nextPow2Go_eq (n : Nat) (hn : n ≤ 2 ^ 63) : ∀ (fuel j : Nat), j + fuel = 66 → j ≤ 63 →
    (j = 0 ∨ 2 ^ (j - 1) < n) →
    ∃ k, nextPow2Go n fuel (2 ^ j) = .ok (2 ^ k) ∧ n ≤ 2 ^ k ∧ (k = 0 ∨ 2 ^ (k - 1) < n) := by
  intro fuel
  induction fuel with
  | zero => intro j h1 h2; omega
  | succ fuel ih =>
    intro j h1 h2 h3
    rw [nextPow2Go]
    split
    · rename_i h
      have hj : j < 63 := by
        by_contra hh
        have : j = 63 := by omega
        subst this
        omega
      have e : 2 ^ j * 2 % 2 ^ 64 = 2 ^ (j + 1) := by
        rw [← pow_succ, Nat.mod_eq_of_lt (Nat.pow_lt_pow_right (by omega) (by omega))]
      rw [e]
      exact ih (j + 1) (by omega) (by omega) (.inr (by simpa using h))
    · exact ⟨j, rfl, by omega, h3⟩

/-- **C37** For every non-empty data set that fits in the address space the FFT length is a power
of two of at least `2 * data_size - 1` (so that the cyclic convolution does not wrap around),
and it is the smallest one. -/
theorem C37_length {d : Nat} (h0 : 0 < d) (h1 : 2 * d ≤ 2 ^ 63) :
    ∃ k, nextPow2 ((2 * d + (2 ^ 64 - 1)) % 2 ^ 64) = .ok (2 ^ k) ∧ 2 * d - 1 ≤ 2 ^ k ∧
      (k = 0 ∨ 2 ^ (k - 1) < 2 * d - 1) := by
  have e : (2 * d + (2 ^ 64 - 1)) % 2 ^ 64 = 2 * d - 1 := by omega
  rw [e]
  exact nextPow2Go_eq _ (by omega) 66 0 rfl (by omega) (.inl rfl)

/-- **C37** The claim about the length is false for an empty range (`n_used = 0` and no window
points): `2 * data_size - 1` wraps around and the search for a power of two never ends. -/
theorem C37_length_false : nextPow2 ((2 * 0 + (2 ^ 64 - 1)) % 2 ^ 64) = .ub .hang := by
  decide +kernel

/-! ### Bounds -/

theorem fftSamples_safe {R C : Type} (N : Num R C) {t : Tau R C} {A : Nat} (h : Ready t A) (w0 : R)
    (inWin : R → Bool) {c s : Nat} (hc : c < A) : ∀ (cnt n : Nat), s + n + cnt ≤ A →
    ∃ ps, fftSamples N t w0 inWin c s n cnt = .ok ps ∧ ps.length = cnt := by
  intro cnt
  induction cnt with
  | zero => exact fun n _ => ⟨[], rfl, rfl⟩
  | succ cnt ih =>
    intro n hn
    have h1 : (fftSample N t w0 inWin c s n).Safe := by
      unfold fftSample
      refine (rdP_safe h (by simp [xfFields]) (by omega)).bind fun r _ => ?_
      refine (rdP_safe h (by simp [xfFields]) hc).bind fun rc _ => ?_
      refine Res.Safe.bind ?_ fun k _ => ?_
      · split
        · exact (kernel_safe N h (by omega) hc).bind fun _ _ => ⟨_, rfl⟩
        · exact ⟨_, rfl⟩
      · obtain ⟨l, e, hl⟩ := h.tIn
        rw [e]
        exact Res.Safe.bind ⟨_, by rw [rdP, rd_lt (by omega)]⟩ fun _ _ => ⟨_, rfl⟩
    obtain ⟨p, e1⟩ := h1
    obtain ⟨ps, e2, e3⟩ := ih (n + 1) (by omega)
    exact ⟨p :: ps, by rw [fftSamples, e1, Res.ok_bind, e2, Res.ok_bind], by simp [e3]⟩

/-- **C37** (bounds) If `half_nw_pts = w/dx` rows exist on both sides of the processed range the
FFT method reads and writes inside the arrays.  Missing: `Check_Data_Range` only guarantees
half of that, see `C37_bounds_false`. -/
theorem C37_bounds_partial (N : Num Dbl Cpx) {Z : FFT} (hf : ∀ l, (Z.fft l).length = l.length)
    (hi : ∀ l, (Z.ifft l).length = l.length) (E : Env) {t : TauD} (h : Ready t t.arrSize)
    (ho : ∃ l, t.carr .tOut = some l ∧ t.arrSize ≤ l.length) {w0 : Dbl} {half : Nat}
    (hw : rdP (t.arr .w) (t.start + t.nUsed / 2) = .ok w0)
    (hh : (N.div w0 t.dx).toSize = .ok half) (h0 : 0 < t.nUsed) (h1 : half ≤ t.start)
    (h2 : t.start + t.nUsed + half ≤ t.arrSize) (h3 : 2 * (t.nUsed + 2 * half) ≤ 2 ^ 63) :
    (simpleFFTBody N Z E t).Safe := by
  unfold simpleFFTBody
  obtain ⟨k, ek, hk, -⟩ := C37_length (d := t.nUsed + 2 * half) (by omega) h3
  simp only []
  rw [hw, Res.ok_bind, hh, Res.ok_bind]
  rw [show t.nUsed + (2 * half + 1) - 1 = t.nUsed + 2 * half by omega, ek, Res.ok_bind]
  split
  · exact ⟨_, rfl⟩
  rw [subIdx_le (by omega), Res.ok_bind]
  obtain ⟨ps, e, hl⟩ := fftSamples_safe N h w0 (fun x => (N.abs x).le (N.mul (N.lit (1/2)) w0))
    (c := t.start + t.nUsed / 2)
    (s := t.start + t.nUsed / 2 - (t.nUsed + 2 * half) / 2) (by omega) (t.nUsed + 2 * half) 0 (by omega)
  unfold fftOut
  rw [e, Res.ok_bind, Res.ok_bind]
  have hr := forRange_total (σ := TauD)
    (fun _ s => s.start = t.start ∧ ∃ l, s.carr .tOut = some l ∧ t.arrSize ≤ l.length)
    (fftStore (Z.ifft (List.zipWith N.cmul
      (Z.fft (ps.map Prod.fst ++ List.replicate (2 ^ k - (t.nUsed + 2 * half)) N.czero))
      (Z.fft (ps.map Prod.snd ++ List.replicate (2 ^ k - (t.nUsed + 2 * half)) N.czero))))
      half ((t.nUsed + 2 * half) / 2) (2 ^ k)) t.nUsed 0 t ⟨rfl, ho⟩ (fun n s _ hn hs => by
    obtain ⟨hst, l, e1, e2⟩ := hs
    unfold fftStore
    rw [rd_lt (by
      rw [hi]
      simp only [List.length_zipWith, hf, List.length_append, List.length_map, hl,
        List.length_replicate, Nat.min_self]
      refine lt_of_lt_of_le (Nat.mod_lt _ (Nat.two_pow_pos k)) (by omega)), Res.ok_bind]
    rw [storeOut, e1]
    simp only []
    rw [wr_lt (by omega), Res.ok_bind]
    exact ⟨_, rfl, hst, _, rfl, by simpa using e2⟩)
  exact hr.imp fun _ h => h.1

/-- **C37** (bounds) is false: whenever the range starts less than `w/dx` rows into the data —
`Check_Data_Range` asks for `w/(2 dx)` rows only — the method reads outside the arrays. -/
theorem C37_bounds_ub (N : Num Dbl Cpx) (Z : FFT) (E : Env) (hE : E.mem = true) {t : TauD} {w0 : Dbl}
    {half : Nat} (hw : rdP (t.arr .w) (t.start + t.nUsed / 2) = .ok w0)
    (hh : (N.div w0 t.dx).toSize = .ok half) (h0 : 0 < t.nUsed) (h1 : t.start < half)
    (h3 : 2 * (t.nUsed + 2 * half) ≤ 2 ^ 63) :
    ¬ (simpleFFTBody N Z E t).Safe := by
  unfold simpleFFTBody
  obtain ⟨k, ek, hk, -⟩ := C37_length (d := t.nUsed + 2 * half) (by omega) h3
  simp only []
  rw [hw, Res.ok_bind, hh, Res.ok_bind]
  rw [show t.nUsed + (2 * half + 1) - 1 = t.nUsed + 2 * half by omega, ek, Res.ok_bind]
  rw [hE]
  simp only [Bool.not_true, Bool.false_eq_true, if_false]
  rw [subIdx, if_neg (by omega)]
  exact Res.not_safe_ub _

/-- **C37** (bounds) a concrete object with full-length arrays, accepted by all checks, for which
the FFT method reads out of bounds. -/
theorem C37_bounds_false :
    ∃ t : TauD, t.err = none ∧ t.psinum = .newtonSimpleFFT ∧ Ready t t.arrSize ∧ 0 < t.nUsed ∧
      checkDataRange exactNum t = .ok t ∧
      dcSimpleFFT exactNum ⟨id, id⟩ exampleEnv t = .ub .oobRead := by
  refine ⟨dcTau .newtonSimpleFFT false fours, rfl, rfl, (dcTau_even _ _).2, by decide,
    accepts rfl (Res.of_test (by decide +kernel)), Res.of_isUB (by decide +kernel)⟩

/-- An object that meets the hypotheses of `C37_bounds_partial`: one row, windows of width 2. -/
example : (simpleFFTBody exactNum ⟨id, id⟩ exampleEnv
    { dcTau .newtonSimpleFFT false (List.replicate 10 (.fin 2)) with start := 3, nUsed := 3 }).Safe := by
  refine C37_bounds_partial exactNum (fun _ => rfl) (fun _ => rfl) exampleEnv (w0 := .fin 2) (half := 2)
    ⟨?_, ⟨_, rfl, by decide⟩, by decide⟩ ⟨_, rfl, by decide⟩ rfl (by decide +kernel) (by decide)
    (by decide) (by decide) (by decide)
  intro f hf
  simp only [xfFields, List.mem_cons, List.not_mem_nil, or_false] at hf
  rcases hf with rfl | rfl | rfl | rfl | rfl | rfl | rfl | rfl | rfl <;> exact ⟨_, rfl, by decide⟩

/-! ### The computed sum -/

theorem fftSamples_eq {R C : Type} {N : Num R C} {t : Tau R C} {w0 : R} {inWin : R → Bool} {c s : Nat}
    {f : Nat → C × C} : ∀ (cnt n : Nat), (∀ j, n ≤ j → j < n + cnt →
      fftSample N t w0 inWin c s j = .ok (f j)) →
    fftSamples N t w0 inWin c s n cnt = .ok ((List.range' n cnt).map f) := by
  intro cnt
  induction cnt with
  | zero => exact fun n _ => rfl
  | succ cnt ih =>
    intro n h
    rw [fftSamples, h n (by omega) (by omega), Res.ok_bind,
      ih (n + 1) (fun j h1 h2 => h j (by omega) (by omega)), Res.ok_bind, List.range'_succ, List.map_cons]

theorem entry_padded (f : Nat → ℂ) (d m i : Nat) :
    entry ((List.range' 0 d).map f ++ List.replicate m 0) i = if i < d then f i else 0 := by
  unfold entry List.getD
  by_cases h : i < d
  · rw [List.getElem?_append_left (by simpa using h)]
    simp [h]
  · rw [List.getElem?_append_right (by simpa using h), List.getElem?_replicate]
    simp only [h, if_false]
    split <;> rfl

namespace Spec

/-- The kernel that the FFT method uses for a pair of samples `r - c` rows apart: taper times
`dx` times the Fresnel kernel between rows `r` and `c`, cut off outside the window. -/
noncomputable def fftWeight (N : Num ℝ ℂ) (t : Tau ℝ ℂ) (w0 : ℝ) (inWin : ℝ → Bool) (rho : Nat → ℝ)
    (kap : Nat → ℂ) (c r : Nat) : ℂ :=
  if inWin (rho r - rho c) then (N.winFn t.window (rho r - rho c) w0 * t.dx : ℝ) * kap r else 0

end Spec

/-- **C37** In exact arithmetic with an exact discrete Fourier transform, the value taken for row
`s + n` is the direct sum over the `2 * half + 1` samples around that row, with the kernel of
the central row `c`: sample `i` has the weight of the pair of rows `(c + (s + n) - i, c)`. -/
theorem C37_direct_sum {N : Num ℝ ℂ} (hN : N.IsExact) {Z : FFTOf ℂ} (hZ : IsDFT Z) {t : Tau ℝ ℂ}
    {l : List ℂ} (hl : t.carr .tIn = some l) {w0 : ℝ} {inWin : ℝ → Bool} {s m half size : Nat}
    {rho : Nat → ℝ} {kap : Nat → ℂ} (h1 : half ≤ s) (h2 : s + m + half ≤ l.length)
    (hrho : ∀ r, s - half ≤ r → r < s + m + half → rdP (t.arr .rho) r = .ok (rho r))
    (hkap : ∀ r, s - half ≤ r → r < s + m + half → kernel N t r (s + m / 2) = .ok (kap r))
    (hout : ∀ r, s - half ≤ r → r < s + m + half → (r + half < s + m / 2 ∨ s + m / 2 + half < r) →
      inWin (rho r - rho (s + m / 2)) = false)
    (hm : 0 < m) (hsize : 2 * (m + 2 * half) - 1 ≤ size) :
    ∃ out, fftOut N Z t w0 inWin (s + m / 2) (s - half) (m + 2 * half) size = .ok out ∧
      ∀ n, n < m → rd out ((half + n + (m + 2 * half) / 2) % size) =
        .ok (windowSum (fun i => fftWeight N t w0 inWin rho kap (s + m / 2) (s + m / 2 + (s + n) - i))
          l (s + n) half) := by
  set c := s + m / 2 with hc
  set d := m + 2 * half with hd
  have hS : ∀ j, 0 ≤ j → j < 0 + d → fftSample N t w0 inWin c (s - half) j =
      .ok (fftWeight N t w0 inWin rho kap c (s - half + j), sample l (s - half + j)) := by
    intro j _ hj
    unfold fftSample
    rw [hrho _ (by omega) (by omega), Res.ok_bind, hrho _ (by omega) (by omega), Res.ok_bind, hN.sub]
    have e2 : rdP (t.carr .tIn) (s - half + j) = .ok (sample l (s - half + j)) := by
      rw [hl, rdP, rd_lt (by omega), sample, List.getD, List.getElem?_eq_getElem (by omega)]; rfl
    rw [hkap _ (by omega) (by omega), e2]
    unfold fftWeight
    simp only [hN.crmul, hN.mul, Res.ok_bind, czero_eq hN]
    split <;> rfl
  have hsz : d ≤ size := by omega
  set a := (List.range' 0 d).map (fun j => fftWeight N t w0 inWin rho kap c (s - half + j)) ++
    List.replicate (size - d) (0 : ℂ) with ha
  set b := (List.range' 0 d).map (fun j => sample l (s - half + j)) ++
    List.replicate (size - d) (0 : ℂ) with hb
  have la : a.length = size := by simp [ha]; omega
  have lb : b.length = size := by simp [hb]; omega
  have ho : fftOut N Z t w0 inWin c (s - half) d size =
      .ok (Z.ifft (List.zipWith (· * ·) (Z.fft a) (Z.fft b))) := by
    unfold fftOut
    rw [fftSamples_eq d 0 hS, Res.ok_bind]
    simp only [List.map_map, Function.comp_def]
    rw [show N.cmul = (· * ·) from funext fun x => funext fun y => hN.cmul x y, czero_eq hN]
  refine ⟨_, ho, ?_⟩
  intro n hn
  have hK : half + n + d / 2 < size := by omega
  rw [Nat.mod_eq_of_lt hK]
  have hlen : (Z.ifft (List.zipWith (· * ·) (Z.fft a) (Z.fft b))).length = size := by
    simp [hZ.ifftLen, hZ.fftLen, la, lb]
  rw [rd_lt (by omega)]
  have hcv := convolution hZ la lb hK
  rw [entry, List.getD, List.getElem?_eq_getElem (by omega), Option.getD_some] at hcv
  rw [hcv]
  congr 1
  have hsub : Finset.Icc (m / 2) (m / 2 + 2 * half) ⊆ Finset.range size := fun i hi => by
    rw [Finset.mem_Icc] at hi; rw [Finset.mem_range]; omega
  rw [← Finset.sum_subset hsub, windowSum, window]
  · refine Finset.sum_nbij' (fun i => s + n + m / 2 + half - i) (fun i => s + n + m / 2 + half - i)
      ?_ ?_ ?_ ?_ ?_
    · intro i hi; rw [Finset.mem_Icc] at *; omega
    · intro i hi; rw [Finset.mem_Icc] at *; omega
    · intro i hi; rw [Finset.mem_Icc] at hi; show _ - (_ - _) = _; omega
    · intro i hi; rw [Finset.mem_Icc] at hi; show _ - (_ - _) = _; omega
    · intro i hi
      rw [Finset.mem_Icc] at hi
      have e : (half + n + d / 2 + size - i) % size = half + n + d / 2 - i := by
        rw [show half + n + d / 2 + size - i = half + n + d / 2 - i + size by omega, Nat.add_mod_right,
          Nat.mod_eq_of_lt (by omega)]
      rw [e, ha, hb, entry_padded, entry_padded, if_pos (by omega), if_pos (by omega)]
      congr 2 <;> omega
  · intro i hi hni
    rw [Finset.mem_range] at hi
    rw [Finset.mem_Icc] at hni
    rw [ha, entry_padded]
    split
    · rw [fftWeight, hout _ (by omega) (by omega) (by omega)]
      simp
    · rw [zero_mul]

/-- **C37** For evenly spaced radii (spacing `δ`, half width `⌊w/δ⌋`, cut-off at half the width as
in the code) the value of row `p = s + n` is `∑ w(p - i) dx K(c + p - i, c) T_i` over the samples
within `w/2` of row `p`. -/
theorem C37_even {N : Num ℝ ℂ} (hN : N.IsExact) {Z : FFTOf ℂ} (hZ : IsDFT Z) {t : Tau ℝ ℂ}
    {A : Nat} (hA : Ready t A) {l : List ℂ} (hl : t.carr .tIn = some l) {w0 δ ρ₀ : ℝ} (hδ : 0 < δ)
    (hw : 0 ≤ w0) (hrho : ∀ r, r < A → rdP (t.arr .rho) r = .ok (ρ₀ + r * δ)) {s m size : Nat}
    (h1 : ⌊w0 / δ⌋₊ ≤ s) (h2 : s + m + ⌊w0 / δ⌋₊ ≤ A) (h3 : A ≤ l.length) (hm : 0 < m)
    (hsize : 2 * (m + 2 * ⌊w0 / δ⌋₊) - 1 ≤ size) :
    ∃ kap : Nat → ℂ, (∀ r, r < A → kernel N t r (s + m / 2) = .ok (kap r)) ∧
    ∃ out, fftOut N Z t w0 (fun x => decide (|x| ≤ w0 / 2)) (s + m / 2) (s - ⌊w0 / δ⌋₊)
        (m + 2 * ⌊w0 / δ⌋₊) size = .ok out ∧
      ∀ n p : Nat, n < m → p = s + n →
        rd out ((⌊w0 / δ⌋₊ + n + (m + 2 * ⌊w0 / δ⌋₊) / 2) % size) = .ok
          (∑ i ∈ window p ⌊w0 / δ⌋₊, (if |((p : ℝ) - i) * δ| ≤ w0 / 2 then
            ((N.winFn t.window (((p : ℝ) - i) * δ) w0 * t.dx : ℝ) : ℂ) * kap (s + m / 2 + p - i) else 0) *
              sample l i) := by
  have hk : ∀ r : Nat, ∃ z : ℂ, r < A → kernel N t r (s + m / 2) = .ok z := fun r => by
    by_cases h : r < A
    · obtain ⟨z, e⟩ := kernel_safe N hA h (show s + m / 2 < A by omega)
      exact ⟨z, fun _ => e⟩
    · exact ⟨0, fun h' => absurd h' h⟩
  choose kap hkap using hk
  refine ⟨kap, hkap, ?_⟩
  have hout : ∀ r : Nat, r + ⌊w0 / δ⌋₊ < s + m / 2 ∨ s + m / 2 + ⌊w0 / δ⌋₊ < r →
      decide (|ρ₀ + (r : ℝ) * δ - (ρ₀ + ((s + m / 2 : Nat) : ℝ) * δ)| ≤ w0 / 2) = false := by
    intro r h
    rw [decide_eq_false_iff_not, not_le]
    have hf := Nat.lt_floor_add_one (w0 / δ)
    rw [div_lt_iff₀ hδ] at hf
    rcases h with h | h
    · have h' : (r : ℝ) + ⌊w0 / δ⌋₊ + 1 ≤ ((s + m / 2 : Nat) : ℝ) := by exact_mod_cast h
      refine lt_of_lt_of_le (b := (((s + m / 2 : Nat) : ℝ) - r) * δ) ?_ ?_
      · nlinarith
      · rw [show ρ₀ + (r : ℝ) * δ - (ρ₀ + ((s + m / 2 : Nat) : ℝ) * δ) =
          -((((s + m / 2 : Nat) : ℝ) - r) * δ) by ring]
        rw [abs_neg]; exact le_abs_self (_ : ℝ)
    · have h' : ((s + m / 2 : Nat) : ℝ) + ⌊w0 / δ⌋₊ + 1 ≤ (r : ℝ) := by exact_mod_cast h
      refine lt_of_lt_of_le (b := ((r : ℝ) - ((s + m / 2 : Nat) : ℝ)) * δ) ?_ ?_
      · nlinarith
      · rw [show ρ₀ + (r : ℝ) * δ - (ρ₀ + ((s + m / 2 : Nat) : ℝ) * δ) =
          ((r : ℝ) - ((s + m / 2 : Nat) : ℝ)) * δ by ring]
        exact le_abs_self (_ : ℝ)
  obtain ⟨out, e1, e2⟩ := C37_direct_sum hN hZ hl (w0 := w0)
    (inWin := fun x : ℝ => decide (|x| ≤ w0 / 2)) (s := s) (m := m) (half := ⌊w0 / δ⌋₊) (size := size)
    (rho := fun r => ρ₀ + r * δ) (kap := kap) h1 (by omega) (fun r _ h => hrho r (by omega))
    (fun r _ h => hkap r (by omega)) (fun r _ _ h => hout r h) hm hsize
  refine ⟨out, e1, fun n p hn hp => ?_⟩
  subst hp
  rw [e2 n hn, windowSum]
  congr 1
  refine Finset.sum_congr rfl fun i hi => ?_
  rw [window, Finset.mem_Icc] at hi
  have e : ρ₀ + ((s + m / 2 + (s + n) - i : Nat) : ℝ) * δ - (ρ₀ + ((s + m / 2 : Nat) : ℝ) * δ) =
      (((s + n : Nat) : ℝ) - i) * δ := by
    rw [Nat.cast_sub (by omega), Nat.cast_add]; ring
  simp only [fftWeight, e, decide_eq_true_eq]

/-- The object of `C21` with radii `0, 1, ..., 9`. -/
noncomputable def lineTau : Tau ℝ ℂ :=
  { realTau with arr := fun _ => some ((List.range 10).map fun i : Nat => (i : ℝ)) }

/-- A case that meets the hypotheses of `C37_even`: rows `3, 4, 5`, width 2. -/
example : ∃ kap : Nat → ℂ, (∀ r, r < 10 → kernel realNum lineTau r (3 + 3 / 2) = .ok (kap r)) ∧
    ∃ out, fftOut realNum trueDFT lineTau 2 (fun x => decide (|x| ≤ 2 / 2)) (3 + 3 / 2)
      (3 - ⌊(2 : ℝ) / 1⌋₊) (3 + 2 * ⌊(2 : ℝ) / 1⌋₊) 16 = .ok out := by
  have h2 : ⌊(2 : ℝ) / 1⌋₊ = 2 := by norm_num
  obtain ⟨kap, h, out, e, -⟩ := C37_even realNum_exact trueDFT_isDFT (t := lineTau) (A := 10)
    (l := List.replicate 10 Complex.I) (w0 := 2) (δ := 1) (ρ₀ := 0) (s := 3) (m := 3) (size := 16)
    ⟨fun _ _ => ⟨_, rfl, by simp⟩, ⟨_, rfl, by simp⟩, le_refl _⟩ rfl (by norm_num) (by norm_num)
    (fun r hr => by
      show rd ((List.range 10).map fun i : Nat => (i : ℝ)) r = _
      rw [rd_lt (by simpa using hr)]
      simp) (by omega) (by omega) (by simp) (by omega) (by omega)
  exact ⟨kap, h, out, e⟩

/-- **C37** What is stored: a run without error computes, with the width of the central row
`c`, the half width `w/dx`, the FFT length and the transform of the `n_used + 2 * half` rows
around `c`, and stores entry `half + n + shift` (cyclically) in row `start + n`, for every `n`. -/
theorem C37_stores (N : Num Dbl Cpx) (Z : FFT) (E : Env) {t u : TauD} (h : t.err = none)
    (e : dcSimpleFFT N Z E t = .ok u) (hu : u.err = none) :
    ∃ w0 half size out, rdP (t.arr .w) (t.start + t.nUsed / 2) = .ok w0 ∧
      (N.div w0 t.dx).toSize = .ok half ∧
      nextPow2 ((2 * (t.nUsed + 2 * half) + (2 ^ 64 - 1)) % 2 ^ 64) = .ok size ∧
      half ≤ t.start ∧
      fftOut N Z t w0 (fun x => (N.abs x).le (N.mul (N.lit (1/2)) w0)) (t.start + t.nUsed / 2)
        (t.start - half) (t.nUsed + 2 * half) size = .ok out ∧
      ∀ n, n < t.nUsed → ∃ lo v, u.carr .tOut = some lo ∧ lo[t.start + n]? = some v ∧
        rd out ((half + n + (t.nUsed + 2 * half) / 2) % size) = .ok v := by
  rcases withChecks_cases N _ h e with ⟨fn, l, h'⟩ | ⟨-, -, e'⟩
  · subst h'; cases hu
  unfold simpleFFTBody at e'
  simp only [Res.bind_eq_ok] at e'
  obtain ⟨w0, a1, half, a2, size, a3, e'⟩ := e'
  rw [show t.nUsed + (2 * half + 1) - 1 = t.nUsed + 2 * half by omega] at *
  split at e'
  · cases e'; cases hu
  simp only [Res.bind_eq_ok] at e'
  obtain ⟨st, a4, out, a5, e'⟩ := e'
  have hst : half ≤ t.start ∧ st = t.start - half := by
    unfold subIdx at a4
    split at a4
    · cases a4; omega
    · cases a4
  obtain ⟨h1, rfl⟩ := hst
  refine ⟨w0, half, size, out, a1, a2, a3, h1, a5, ?_⟩
  have := forRange_partial (σ := TauD)
    (fun n s => Filled (fun j v => ∀ i, j = t.start + i →
        rd out ((half + i + (t.nUsed + 2 * half) / 2) % size) = .ok v)
      (fun j => t.start ≤ j ∧ j < t.start + n) t s)
    _ t.nUsed 0 t u (Filled.refl _ (fun i hi => by omega) t) ?_ e'
  · intro n hn
    rw [Nat.zero_add] at this
    obtain ⟨lo, v, b1, b2, b3⟩ := this.vals (t.start + n) ⟨by omega, by omega⟩
    exact ⟨lo, v, b1, b2, b3 n rfl⟩
  · intro n s s' _ _ hF eb
    unfold fftStore at eb
    rw [Res.bind_eq_ok] at eb
    obtain ⟨v, hv, eb⟩ := eb
    rw [hF.start] at eb
    obtain ⟨hF2, -⟩ := storeOut_ok eb
    refine hF.trans (hF2.congr (fun _ => Iff.rfl) (fun j x hj hx i hi => ?_)) (fun i => ?_)
    · subst hx
      have : i = n := by omega
      subst this
      exact hv
    · omega

/-- The hypotheses of `C37_stores` are met by a run with widths 2. -/
example : ∃ u, dcSimpleFFT exactNum ⟨id, id⟩ exampleEnv
    (dcTau .newtonSimpleFFT false (List.replicate 10 (.fin 2))) = .ok u ∧ u.err = none := by
  obtain ⟨u, e, h⟩ := Res.of_test (x := dcSimpleFFT exactNum ⟨id, id⟩ exampleEnv
    (dcTau .newtonSimpleFFT false (List.replicate 10 (.fin 2)))) (p := fun u => u.err == none)
    (by decide +kernel)
  exact ⟨u, e, by simpa using h⟩

end Verif
