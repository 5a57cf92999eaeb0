import Verif.Spec.Poly
import Verif.Spec.Driver
import Verif.Props.C18
import Verif.Props.C23
import Verif.Props.C34

/-!
# C25, C26: Legendre polynomials
-/
namespace Verif
open Spec

theorem horner_eq {N : Num ℝ ℂ} (hN : N.IsExact) {c : List ℝ} {order bound J : Nat} {x2 : ℝ}
    (ho : 2 ≤ order) (hc : order ≤ c.length) (hJ : hornerPasses bound = J)
    (hb : 2 * J + 2 ≤ order) :
    horner N c order bound x2 = .ok
      (∑ k ∈ Finset.range (J + 1), val c (order - 1 - 2 * (J - k)) * x2 ^ k,
       ∑ k ∈ Finset.range (J + 1), val c (order - 2 - 2 * (J - k)) * x2 ^ k) := by
  rw [horner, subIdx_le (by omega), Res.ok_bind, rd_val (by omega), Res.ok_bind,
    subIdx_le (by omega), Res.ok_bind, rd_val (by omega), Res.ok_bind, hJ]
  have := forRange_states (body := hornerStep N c order x2) (fun j =>
    (∑ k ∈ Finset.range (j + 1), val c (order - 1 - 2 * (j - k)) * x2 ^ k,
     ∑ k ∈ Finset.range (j + 1), val c (order - 2 - 2 * (j - k)) * x2 ^ k)) J 0
    (fun j _ hj => by
      rw [hornerStep, subIdx_le (by omega), Res.ok_bind, rd_val (by omega), Res.ok_bind,
        subIdx_le (by omega), Res.ok_bind, rd_val (by omega), Res.ok_bind]
      simp only [hN.add, hN.mul, Finset.sum_range_succ' _ (j + 1), Finset.sum_mul, pow_zero,
        mul_one]
      congr 2
      · congr 1
        · refine Finset.sum_congr rfl fun k hk => ?_
          rw [show j + 1 - (k + 1) = j - k by omega, pow_succ]; ring
        · congr 1; omega
      · congr 1
        · refine Finset.sum_congr rfl fun k hk => ?_
          rw [show j + 1 - (k + 1) = j - k by omega, pow_succ]; ring
        · congr 1; omega)
  simpa using this

/-- Even and odd part of a polynomial. -/
theorem sum_even_odd (a : Nat → ℝ) (x : ℝ) : ∀ m, ∑ i ∈ Finset.range (2 * m), a i * x ^ i =
    ∑ k ∈ Finset.range m, a (2 * k) * (x * x) ^ k + x * ∑ k ∈ Finset.range m, a (2 * k + 1) * (x * x) ^ k := by
  intro m
  induction m with
  | zero => simp
  | succ m ih =>
    rw [show 2 * (m + 1) = 2 * m + 1 + 1 by omega, Finset.sum_range_succ, Finset.sum_range_succ, ih,
      Finset.sum_range_succ, Finset.sum_range_succ]
    ring

theorem legPoly_eq (c : List ℝ) (order : Nat) (kD x : ℝ) :
    legPoly c order kD x = kD * (x * x) * ∑ i ∈ Finset.range order, val c i * x ^ i := by
  rw [legPoly, mul_assoc, Finset.mul_sum (a := x * x)]
  congr 1
  exact Finset.sum_congr rfl fun i _ => by ring

/-- **C25** for even degree (odd `order`): the left sample (displacement `x`) gets the
polynomial at `x`, the right one the polynomial at `-x`. -/
theorem C25_even_partial {N : Num ℝ ℂ} (hN : N.IsExact) {v : Leg} (hv : legEven v = true)
    {c : List ℝ} {order : Nat} (ho : 2 ≤ order) (hodd : order % 2 = 1) (hc : order ≤ c.length)
    (kD x : ℝ) :
    legPsi N v c order kD x = .ok (legPoly c order kD x, legPoly c order kD (-x)) := by
  obtain ⟨m, rfl⟩ : ∃ m, order = 2 * (m + 1) + 1 := ⟨(order - 3) / 2, by omega⟩
  have e : legPsi N v c (2 * (m + 1) + 1) kD x = legEvenPsi N c (2 * (m + 1) + 1) kD x := by
    cases v <;> first | rfl | cases hv
  rw [e, legEvenPsi, horner_eq hN ho hc (J := m) (by unfold hornerPasses; omega) (by omega),
    Res.ok_bind, rd_val (by omega), Res.ok_bind]
  have e1 : ∀ k ∈ Finset.range (m + 1), val c (2 * (m + 1) + 1 - 1 - 2 * (m - k)) * (x * x) ^ k =
      val c (2 * (k + 1)) * (x * x) ^ k := fun k hk => by
    have := Finset.mem_range.1 hk
    congr 2; omega
  have e2 : ∀ k ∈ Finset.range (m + 1), val c (2 * (m + 1) + 1 - 2 - 2 * (m - k)) * (x * x) ^ k =
      val c (2 * k + 1) * (x * x) ^ k := fun k hk => by
    have := Finset.mem_range.1 hk
    congr 2; omega
  simp only [hN.mul, hN.add, hN.sub]
  rw [Finset.sum_congr rfl e1, Finset.sum_congr rfl e2]
  have key : ∀ y : ℝ, y * y = x * x → legPoly c (2 * (m + 1) + 1) kD y = kD * (x * x) *
      ((∑ k ∈ Finset.range (m + 1), val c (2 * (k + 1)) * (x * x) ^ k) * (x * x) + val c 0 +
        y * ∑ k ∈ Finset.range (m + 1), val c (2 * k + 1) * (x * x) ^ k) := by
    intro y hy
    rw [legPoly_eq, Finset.sum_range_succ, sum_even_odd, hy]
    congr 1
    have : ∑ k ∈ Finset.range (m + 1), val c (2 * k) * (x * x) ^ k +
        val c (2 * (m + 1)) * (x * x) ^ (m + 1) =
        (∑ k ∈ Finset.range (m + 1), val c (2 * (k + 1)) * (x * x) ^ k) * (x * x) + val c 0 := by
      rw [← Finset.sum_range_succ (fun k => val c (2 * k) * (x * x) ^ k), Finset.sum_range_succ',
        Finset.sum_mul]
      congr 1
      · exact Finset.sum_congr rfl fun k _ => by rw [pow_succ]; ring
      · simp
    rw [← this, ← hy, pow_mul, sq]
    ring
  rw [key x rfl, key (-x) (by ring)]
  congr 2
  · ring
  · ring

theorem legOdd_eq {N : Num ℝ ℂ} (hN : N.IsExact) {c : List ℝ} {m : Nat} (hc : 2 * (m + 1) ≤ c.length)
    (kD x : ℝ) : legOddPsi N (2 * (m + 1)) c (2 * (m + 1)) kD x =
      .ok (legPoly c (2 * (m + 1)) kD (-x), legPoly c (2 * (m + 1)) kD x) := by
  rw [legOddPsi, horner_eq hN (by omega) hc (J := m) (by unfold hornerPasses; omega) (by omega),
    Res.ok_bind]
  have e1 : ∀ k ∈ Finset.range (m + 1), val c (2 * (m + 1) - 1 - 2 * (m - k)) * (x * x) ^ k =
      val c (2 * k + 1) * (x * x) ^ k := fun k hk => by
    have := Finset.mem_range.1 hk
    congr 2; omega
  have e2 : ∀ k ∈ Finset.range (m + 1), val c (2 * (m + 1) - 2 - 2 * (m - k)) * (x * x) ^ k =
      val c (2 * k) * (x * x) ^ k := fun k hk => by
    have := Finset.mem_range.1 hk
    congr 2; omega
  simp only [hN.mul, hN.add, hN.sub]
  rw [Finset.sum_congr rfl e1, Finset.sum_congr rfl e2]
  have hx : -x * -x = x * x := by ring
  rw [legPoly_eq, legPoly_eq, sum_even_odd, sum_even_odd, hx]
  congr 2
  · ring
  · ring

/-- **C25** for odd degree (even `order`) with normalisation, and without it for cubics:
the polynomial is evaluated at the *mirrored* displacement.  Missing: the side. -/
theorem C25_odd_partial {N : Num ℝ ℂ} (hN : N.IsExact) {v : Leg}
    {c : List ℝ} {order : Nat} (ho : 2 ≤ order) (heven : order % 2 = 0) (hc : order ≤ c.length)
    (hv : v = .oddNorm ∨ (v = .odd ∧ order = 2)) (kD x : ℝ) :
    legPsi N v c order kD x = .ok (legPoly c order kD (-x), legPoly c order kD x) := by
  obtain ⟨m, rfl⟩ : ∃ m, order = 2 * (m + 1) := ⟨(order - 2) / 2, by omega⟩
  rcases hv with rfl | ⟨rfl, hm⟩
  · exact legOdd_eq hN hc kD x
  · obtain rfl : m = 0 := by omega
    exact legOdd_eq hN hc kD x

/-- **C25** For odd degree at least 5 without normalisation the two lowest terms are lost
and all others are two degrees too low. -/
theorem C25_odd_actual {N : Num ℝ ℂ} (hN : N.IsExact)
    {c : List ℝ} {order : Nat} (ho : 4 ≤ order) (heven : order % 2 = 0) (hc : order ≤ c.length)
    (kD x : ℝ) :
    legPsi N .odd c order kD x = .ok (legPolyCut c order kD (-x), legPolyCut c order kD x) := by
  obtain ⟨m, rfl⟩ : ∃ m, order = 2 * (m + 2) := ⟨(order - 4) / 2, by omega⟩
  rw [legPsi, legOddPsi, horner_eq hN (by omega) hc (J := m) (by unfold hornerPasses; omega)
    (by omega), Res.ok_bind]
  have e1 : ∀ k ∈ Finset.range (m + 1), val c (2 * (m + 2) - 1 - 2 * (m - k)) * (x * x) ^ k =
      val c (2 + (2 * k + 1)) * (x * x) ^ k := fun k hk => by
    have := Finset.mem_range.1 hk
    congr 2; omega
  have e2 : ∀ k ∈ Finset.range (m + 1), val c (2 * (m + 2) - 2 - 2 * (m - k)) * (x * x) ^ k =
      val c (2 + (2 * k)) * (x * x) ^ k := fun k hk => by
    have := Finset.mem_range.1 hk
    congr 2; omega
  simp only [hN.mul, hN.add, hN.sub]
  rw [Finset.sum_congr rfl e1, Finset.sum_congr rfl e2]
  have key : ∀ y : ℝ, legPolyCut c (2 * (m + 2)) kD y = kD * (y * y) *
      (∑ k ∈ Finset.range (m + 1), val c (2 + 2 * k) * (y * y) ^ k +
        y * ∑ k ∈ Finset.range (m + 1), val c (2 + (2 * k + 1)) * (y * y) ^ k) := by
    intro y
    rw [legPolyCut, Finset.sum_Ico_eq_sum_range, show 2 * (m + 2) - 2 = 2 * (m + 1) by omega,
      ← sum_even_odd (fun i => val c (2 + i)), mul_assoc, Finset.mul_sum (a := y * y)]
    congr 1
    exact Finset.sum_congr rfl fun i _ => by rw [pow_add]; ring
  have hx : -x * -x = x * x := by ring
  rw [key x, key (-x), hx]
  congr 2
  · ring
  · ring

/-- **C25** is false: the cubic routine puts the polynomial on the wrong side. -/
theorem C25_side_false : ¬ ∀ (N : Num ℝ ℂ), N.IsExact → ∀ (v : Leg) (c : List ℝ) (order : Nat) (kD x : ℝ),
    2 ≤ order → order ≤ c.length → v = legendreOf order false ∨ v = legendreOf order true →
    legPsi N v c order kD x = .ok (legPoly c order kD x, legPoly c order kD (-x)) := by
  intro h
  have h1 := h realNum realNum_exact .oddNorm [0, 1] 2 1 1 (le_refl _) (le_refl _) (.inr rfl)
  rw [C25_odd_partial realNum_exact (le_refl _) rfl (le_refl _) (.inl rfl)] at h1
  simp only [Res.ok.injEq, Prod.mk.injEq] at h1
  have := h1.1
  norm_num [legPoly, Finset.sum_range_succ, val] at this

/-- **C25** is false: the two odd-degree routines disagree for the same coefficients. -/
theorem C25_agree_false : ¬ ∀ (N : Num ℝ ℂ), N.IsExact → ∀ (c : List ℝ) (order : Nat) (kD x : ℝ),
    2 ≤ order → order % 2 = 0 → order ≤ c.length →
    legPsi N .odd c order kD x = legPsi N .oddNorm c order kD x := by
  intro h
  have h1 := h realNum realNum_exact [1, 0, 0, 0] 4 1 1 (by omega) rfl (le_refl _)
  rw [C25_odd_partial realNum_exact (by omega) rfl (by simp) (.inl rfl),
    C25_odd_actual realNum_exact (by omega) rfl (by simp)] at h1
  simp only [Res.ok.injEq, Prod.mk.injEq] at h1
  have := h1.1
  norm_num [legPoly, legPolyCut, Finset.sum_range_succ, Finset.sum_Ico_eq_sum_range, val] at this

/-- A quartic phase at `1/2`: `(1/2)² + 2 (1/2)³ + 4 (1/2)⁴ = 3/4`, and at `-1/2`: `1/4`. -/
example : legPsi realNum .even [1, 2, 4] 3 1 (1/2) = .ok (3/4, 1/4) := by
  rw [C25_even_partial realNum_exact rfl (by omega) rfl (by simp)]
  norm_num [legPoly, Finset.sum_range_succ, val]

/-- **C26** The degree is `order + 1`; the even-degree routine is selected exactly for even
degree, the normalised one exactly for `use_norm`. -/
theorem C26_select (order : Nat) (norm : Bool) :
    (legEven (legSelect order norm) = true ↔ (order + 1) % 2 = 0) ∧
    legNorm (legSelect order norm) = norm := by
  unfold legSelect
  rcases Nat.mod_two_eq_zero_or_one order with h | h <;> cases norm <;>
    simp [h, legEven, legNorm] <;> omega

/-- **C26** The index into the table of four routines is in bounds. -/
theorem C26_table (order : Nat) (norm : Bool) : order % 2 + 2 * (if norm then 1 else 0) < 4 := by
  split <;> omega

/-- **C26** Whatever string selected the Legendre method, the order is one for which the
routines stay inside the coefficient array that the driver fills (any arithmetic, any
routine). -/
theorem C26_coeffs (u : List Char → Fin 256) (t : TauD) (h : t.err = none) (s : List Char)
    (he : (setPsiType u (some s) true t).1.err = none)
    (hp : (setPsiType u (some s) true t).1.psinum = .legendre)
    (N : Num Dbl Cpx) (v : Leg) (c : List Dbl)
    (hc : c.length = (setPsiType u (some s) true t).1.order) (kD x : Dbl) :
    2 ≤ (setPsiType u (some s) true t).1.order ∧ (setPsiType u (some s) true t).1.order ≤ 254 ∧
    (legPsi N v c (setPsiType u (some s) true t).1.order kD x).Safe := by
  have key : 2 ≤ (setPsiType u (some s) true t).1.order ∧
      (setPsiType u (some s) true t).1.order ≤ 254 := by
    rcases C18_accept_sound u t h s he with ⟨p, hm, -, e⟩ | ⟨y, -, -, e⟩ | ⟨y, -, hy, e⟩
    · rw [e] at hp
      exfalso
      revert hp
      simp only [methodNames, List.mem_cons, List.not_mem_nil, or_false] at hm
      rcases hm with rfl | rfl | rfl | rfl | rfl | rfl | rfl | rfl | rfl | rfl | rfl | rfl <;> simp
    · rw [e] at hp; cases hp
    · rw [e]
      have := (u y).isLt
      constructor <;> simp only <;> omega
  exact ⟨key.1, key.2, legPsi_safe N v key.1 (by omega)⟩

/-- "fresnel5" selects degree 5, i.e. four coefficients. -/
example (u : List Char → Fin 256) (hu : ReadsDecimal u) :
    (setPsiType u (some "fresnel5".toList) true (tauInit exactLib)).1.err = none ∧
    (setPsiType u (some "fresnel5".toList) true (tauInit exactLib)).1.psinum = .legendre ∧
    (setPsiType u (some "fresnel5".toList) true (tauInit exactLib)).1.order = 4 := by
  have hm : Matches "fresnel5".toList ("fresnel".toList ++ "5".toList) := by
    rw [matches_iff]; decide
  have h1 : (u "5".toList).val = 5 := hu 5 (by decide)
  obtain ⟨-, e⟩ := fresnel_suffix u (tauInit exactLib) rfl _ _ (by decide) hm
  have hz : u "5".toList ≠ 0 := fun h => by rw [h] at h1; cases h1
  rw [e]
  simp only [h1, hz, if_false]
  exact ⟨rfl, rfl, rfl⟩

end Verif
