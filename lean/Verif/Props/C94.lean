import Verif.Model.PowerFit
import Verif.Spec.PowerFit
import Verif.Props.C93
import Mathlib.Algebra.Polynomial.Roots
import Mathlib.LinearAlgebra.Lagrange
import Mathlib.LinearAlgebra.BilinearForm.Orthogonal
import Mathlib.Tactic.Linarith
import Mathlib.Tactic.Ring

/-!
# C94: the fit of the power in free space
-/
namespace Verif.Cal
open Verif.Rsr Verif.Geo Verif.Cal.Spec

theorem poly_cons (a : ℚ) (c : List ℚ) (x : ℚ) : poly (a :: c) x = a * x ^ c.length + poly c x := by
  unfold poly
  rw [List.length_cons, Finset.sum_range_succ', add_comm]
  congr 1
  refine Finset.sum_congr rfl fun i hi => ?_
  rw [List.getD_cons_succ]
  congr 2
  have := Finset.mem_range.mp hi
  omega

theorem foldl_horner (c : List ℚ) (x y : ℚ) : c.foldl (fun y a => y * x + a) y = y * x ^ c.length + poly c x := by
  induction c generalizing y with
  | nil => simp [poly]
  | cons a c ih =>
    rw [List.foldl_cons, ih, poly_cons, List.length_cons]
    ring

theorem polyval_eq (c : List ℚ) (x : ℚ) : polyval c x = poly c x := by
  unfold polyval
  rw [foldl_horner]
  ring

theorem maskList_cons {α : Type} (b : Bool) (m : List Bool) (a : α) (l : List α) :
    maskList (b :: m) (a :: l) = if b then a :: maskList m l else maskList m l := by
  unfold maskList
  rw [List.zip_cons_cons, List.filter_cons]
  cases b <;> simp

theorem masked_sum (f : ℚ → ℚ → ℚ) : ∀ (m : List Bool) (xs ys : List ℚ), m.length = xs.length → xs.length = ys.length →
    (List.zipWith f (maskList m xs) (maskList m ys)).sum =
      ∑ i ∈ Finset.range xs.length, if m.getD i false then f (xs.getD i 0) (ys.getD i 0) else 0
  | [], [], [], _, _ => by simp [maskList]
  | b :: m, x :: xs, y :: ys, h1, h2 => by
    have ih := masked_sum f m xs ys (by simpa using h1) (by simpa using h2)
    rw [maskList_cons, maskList_cons, List.length_cons, Finset.sum_range_succ']
    simp only [List.getD_cons_succ, List.getD_cons_zero]
    rw [← ih]
    cases b <;> simp [add_comm]

theorem maskList_length {α β : Type} : ∀ (m : List Bool) (xs : List α) (ys : List β), xs.length = ys.length →
    (maskList m xs).length = (maskList m ys).length
  | [], _, _, _ => by simp [maskList]
  | _ :: _, [], [], _ => by simp [maskList]
  | b :: m, x :: xs, y :: ys, h => by
    have ih := maskList_length m xs ys (by simpa using h)
    rw [maskList_cons, maskList_cons]
    cases b <;> simp [ih]

theorem maskList_count {α : Type} : ∀ (m : List Bool) (xs : List α), m.length = xs.length →
    (maskList m xs).length = m.count true
  | [], [], _ => by simp [maskList]
  | b :: m, x :: xs, h => by
    have ih := maskList_count m xs (by simpa using h)
    rw [maskList_cons]
    cases b <;> simp [ih]

theorem residue_misfit {m : List Bool} {xs ys : List ℚ} (c : List ℚ) (h1 : m.length = xs.length) (h2 : xs.length = ys.length) :
    (List.zipWith (fun x y => (poly c x - y) ^ 2) (maskList m xs) (maskList m ys)).sum = misfit c m xs ys :=
  masked_sum (fun x y => (poly c x - y) ^ 2) m xs ys h1 h2

theorem residue_eq (c xs ys : List ℚ) : residue c xs ys = (List.zipWith (fun x y => (poly c x - y) ^ 2) xs ys).sum := by
  unfold residue
  simp only [polyval_eq]

theorem pyMinL_least {l : List ℚ} {x : ℚ} (h : pyMinL l = .ok x) : x ∈ l ∧ ∀ y ∈ l, x ≤ y := by
  cases l with
  | nil => cases h
  | cons a l =>
    obtain ⟨m, h1, h2, h3⟩ := pyMinL_spec (a :: l) (by simp)
    rw [h1] at h
    cases h
    exact ⟨h2, h3⟩

theorem fitPower_ok {pf : Nat → List ℚ → List ℚ → List ℚ} {spm power : List ℚ} {mask : List Bool} {order : Nat} {r : PowerFit}
    (h : fitPower pf spm power mask order = .ok r) :
    mask.length = spm.length ∧ mask.length = power.length ∧ ∃ low, low ∈ spm.map (poly (pf order (maskList mask spm) (maskList mask power))) ∧
      (∀ y ∈ spm.map (poly (pf order (maskList mask spm) (maskList mask power))), low ≤ y) ∧
      r.order = (if low < 0 then 1 else order) ∧
      r.coef = pf r.order (maskList mask spm) (maskList mask power) ∧
      r.fit = spm.map (poly r.coef) ∧
      r.chi2 = if (mask.count true : ℚ) - (order + 1) = 0 then none else some (misfit r.coef mask spm power / (mask.count true - (order + 1))) := by
  unfold fitPower npMask at h
  by_cases h1 : mask.length = spm.length
  · by_cases h2 : mask.length = power.length
    · rw [if_pos h1, if_pos h2] at h
      simp only [bind, Except.bind] at h
      split at h
      · cases h
      · cases hl : pyMinL (spm.map (polyval (pf order (maskList mask spm) (maskList mask power)))) with
        | error e => rw [hl] at h; cases h
        | ok low =>
          rw [hl] at h
          simp only [pure, Except.pure, Except.ok.injEq] at h
          have hp : ∀ c, polyval c = poly c := fun c => funext (polyval_eq c)
          obtain ⟨l1, l2⟩ := pyMinL_least hl
          rw [hp] at l1 l2
          refine ⟨h1, h2, low, l1, l2, ?_⟩
          subst h
          simp only
          refine ⟨trivial, ?_, ?_, ?_⟩
          · split <;> rfl
          · rw [hp]
          · rw [maskList_count mask power h2, residue_eq, residue_misfit _ h1 (h1.symm.trans h2)]
    · rw [if_pos h1, if_neg h2] at h; cases h
  · rw [if_neg h1] at h; cases h

/-- The fit is a polynomial of the order that is stated, has the least sum of squares at the marked samples, and its order is the one
that was asked for or 1; an order other than 1 only with values that are not negative.  The number of `chi2` is the mean square for
the degrees of freedom if the order was kept. -/
theorem C94_fit_partial {pf : Nat → List ℚ → List ℚ → List ℚ} (hpf : LeastSquares pf) {spm power : List ℚ} {mask : List Bool}
    {order : Nat} {r : PowerFit} (h : fitPower pf spm power mask order = .ok r) :
    r.coef.length = r.order + 1 ∧ r.fit.length = spm.length ∧
      (∀ i, i < spm.length → r.fit.getD i 0 = poly r.coef (spm.getD i 0)) ∧
      (∀ c : List ℚ, c.length = r.order + 1 → misfit r.coef mask spm power ≤ misfit c mask spm power) ∧
      (r.order = order ∨ r.order = 1) ∧ (r.order ≠ 1 → ∀ x ∈ r.fit, 0 ≤ x) ∧
      (r.order = order → ∀ x, r.chi2 = some x → x * ((mask.count true : ℚ) - (r.order + 1)) = misfit r.coef mask spm power) := by
  obtain ⟨h1, h2, low, l1, l2, ho, hc, hf, hx⟩ := fitPower_ok h
  have hl := maskList_length mask spm power (h1.symm.trans h2)
  obtain ⟨p1, p2⟩ := hpf r.order _ _ hl
  rw [← hc] at p1 p2
  refine ⟨p1, by rw [hf]; simp, ?_, ?_, ?_, ?_, ?_⟩
  · intro i hi
    rw [hf, List.getD_eq_getElem?_getD, List.getElem?_eq_getElem (by simpa using hi), getD_at hi]
    simp
  · intro c hcl
    have := p2 c hcl
    rwa [residue_misfit _ h1 (h1.symm.trans h2), residue_misfit _ h1 (h1.symm.trans h2)] at this
  · rw [ho]; split <;> simp
  · intro hne x hx
    by_cases hlow : low < 0
    · rw [if_pos hlow] at ho; exact absurd ho hne
    · rw [if_neg hlow] at ho
      rw [hf, hc, ho] at hx
      exact (not_lt.mp hlow).trans (l2 x hx)
  · intro he x hxx
    rw [hx] at hxx
    split at hxx
    · cases hxx
    · rename_i hne
      rw [he]
      cases hxx
      rw [div_mul_cancel₀ _ hne]

open Polynomial in
/-- The polynomial with these coefficients. -/
noncomputable def asPoly (c : List ℚ) : ℚ[X] := ∑ i ∈ Finset.range c.length, C (c.getD i 0) * X ^ (c.length - 1 - i)

theorem poly_eval (c : List ℚ) (x : ℚ) : poly c x = (asPoly c).eval x := by
  unfold asPoly
  rw [Polynomial.eval_finsetSum]
  simp [poly]

theorem poly_degree (c : List ℚ) {n : Nat} (h : c.length ≤ n) : (asPoly c).degree < (n : WithBot ℕ) := by
  refine (Polynomial.degree_sum_le _ _).trans_lt ((Finset.sup_lt_iff (WithBot.bot_lt_coe n)).mpr fun i hi => ?_)
  refine (Polynomial.degree_C_mul_X_pow_le _ _).trans_lt ?_
  have := Finset.mem_range.mp hi
  exact WithBot.coe_lt_coe.mpr (by omega : c.length - 1 - i < n)

theorem poly_unique {c d : List ℚ} {n : Nat} (hc : c.length ≤ n) (hd : d.length ≤ n) (s : Finset ℚ) (hs : n ≤ s.card)
    (h : ∀ x ∈ s, poly c x = poly d x) (x : ℚ) : poly c x = poly d x := by
  have hcd : asPoly c = asPoly d := Polynomial.eq_of_degrees_lt_of_eval_finset_eq s
    ((poly_degree c hc).trans_le (by exact_mod_cast hs)) ((poly_degree d hd).trans_le (by exact_mod_cast hs))
    (fun x hx => by rw [← poly_eval, ← poly_eval]; exact h x hx)
  rw [poly_eval, poly_eval, hcd]

theorem exact_coef {pf : Nat → List ℚ → List ℚ → List ℚ} (hpf : LeastSquares pf) {spm power : List ℚ} {mask : List Bool}
    {order : Nat} (h1 : mask.length = spm.length) (h2 : mask.length = power.length) {c : List ℚ} (hc : c.length = order + 1)
    (he : ∀ i, i < spm.length → mask.getD i false = true → power.getD i 0 = poly c (spm.getD i 0))
    {s : Finset ℚ} (hs : ∀ x ∈ s, ∃ i, i < spm.length ∧ mask.getD i false = true ∧ spm.getD i 0 = x) (hn : order < s.card) :
    (∀ x, poly (pf order (maskList mask spm) (maskList mask power)) x = poly c x) ∧
      misfit (pf order (maskList mask spm) (maskList mask power)) mask spm power = 0 := by
  have h12 := h1.symm.trans h2
  have hl := maskList_length mask spm power h12
  obtain ⟨p1, p2⟩ := hpf order _ _ hl
  set d := pf order (maskList mask spm) (maskList mask power) with hd
  have z : misfit c mask spm power = 0 := by
    refine Finset.sum_eq_zero fun i hi => ?_
    split
    · rw [he i (Finset.mem_range.mp hi) (by assumption), sub_self]; norm_num
    · rfl
  have z' : misfit d mask spm power ≤ 0 := by
    have := p2 c hc
    rwa [residue_misfit _ h1 h12, residue_misfit _ h1 h12, z] at this
  have nn : ∀ i ∈ Finset.range spm.length, 0 ≤ (if mask.getD i false then (poly d (spm.getD i 0) - power.getD i 0) ^ 2 else 0 : ℚ) := by
    intro i _
    split
    · positivity
    · exact le_refl _
  have z0 : misfit d mask spm power = 0 := le_antisymm z' (Finset.sum_nonneg nn)
  have at0 := (Finset.sum_eq_zero_iff_of_nonneg nn).mp z0
  refine ⟨poly_unique p1.le hc.le s hn ?_, z0⟩
  intro x hx
  obtain ⟨i, hi, hm, rfl⟩ := hs x hx
  have := at0 i (Finset.mem_range.mpr hi)
  rw [if_pos hm] at this
  rw [← he i hi hm]
  exact sub_eq_zero.mp (pow_eq_zero_iff (by norm_num) |>.mp this)

/-- Power that is a polynomial in time in the marked samples is found exactly, everywhere, if there are enough samples and the
polynomial is not negative during the observation. -/
theorem C94_exact {pf : Nat → List ℚ → List ℚ → List ℚ} (hpf : LeastSquares pf) {spm power : List ℚ} {mask : List Bool}
    {order : Nat} {r : PowerFit} (h : fitPower pf spm power mask order = .ok r) {c : List ℚ} (hc : c.length = order + 1)
    (he : ∀ i, i < spm.length → mask.getD i false = true → power.getD i 0 = poly c (spm.getD i 0))
    {s : Finset ℚ} (hs : ∀ x ∈ s, ∃ i, i < spm.length ∧ mask.getD i false = true ∧ spm.getD i 0 = x) (hn : order < s.card)
    (hp : ∀ i, i < spm.length → 0 ≤ poly c (spm.getD i 0)) :
    r.order = order ∧ (∀ i, i < spm.length → r.fit.getD i 0 = poly c (spm.getD i 0)) ∧ (∀ x, r.chi2 = some x → x = 0) := by
  obtain ⟨h1, h2, low, l1, l2, ho, hcf, hf, hx⟩ := fitPower_ok h
  obtain ⟨eqs, z0⟩ := exact_coef hpf h1 h2 hc he hs hn
  have hlow : ¬ low < 0 := by
    obtain ⟨x, x1, x2⟩ := List.mem_map.mp l1
    obtain ⟨i, hi, e⟩ := List.mem_iff_getElem.mp x1
    rw [not_lt, ← x2, eqs, ← e, ← getD_at hi]
    exact hp i hi
  rw [if_neg hlow] at ho
  rw [ho] at hcf
  refine ⟨ho, ?_, ?_⟩
  · intro i hi
    rw [hf, List.getD_eq_getElem?_getD, List.getElem?_eq_getElem (by simpa using hi), getD_at hi, hcf]
    simp [eqs]
  · intro x hxx
    rw [hx, hcf, z0] at hxx
    split at hxx
    · cases hxx
    · simpa using hxx.symm

theorem maskList_all {α : Type} : ∀ (n : Nat) (l : List α), n = l.length → maskList (List.replicate n true) l = l
  | _, [], h => by simp [maskList]
  | n + 1, a :: l, h => by rw [List.replicate_succ, maskList_cons, maskList_all n l (by simpa using h)]; rfl

/-- Least squares can be found. -/
theorem leastSquares_exists : ∃ pf, LeastSquares pf := by
  suffices h : ∀ n xs ys, ∃ d : List ℚ, xs.length = ys.length → d.length = n + 1 ∧
      ∀ c : List ℚ, c.length = n + 1 → (List.zipWith (fun x y => (poly d x - y) ^ 2) xs ys).sum ≤
        (List.zipWith (fun x y => (poly c x - y) ^ 2) xs ys).sum by
    choose pf hpf using h
    exact ⟨pf, fun n xs ys hl => hpf n xs ys hl⟩
  intro n xs ys
  by_cases hl : xs.length = ys.length
  swap
  · exact ⟨[], fun h => absurd h hl⟩
  let B : LinearMap.BilinForm ℚ (Fin xs.length → ℚ) := dotProductBilin ℚ ℚ
  let φ : (Fin (n + 1) → ℚ) →ₗ[ℚ] (Fin xs.length → ℚ) :=
    { toFun := fun c k => ∑ i, c i * xs.getD k 0 ^ (n - i.val)
      map_add' := by intro a b; funext k; simp [add_mul, Finset.sum_add_distrib]
      map_smul' := by intro a b; funext k; simp [Finset.mul_sum, mul_assoc] }
  have hφ : ∀ (c : List ℚ) (hc : c.length = n + 1) (k : Fin xs.length), φ (fun i => c.getD i 0) k = poly c (xs.getD k 0) := by
    intro c hc k
    show ∑ i : Fin (n + 1), c.getD i 0 * xs.getD k 0 ^ (n - i.val) = _
    unfold poly
    rw [hc, Nat.add_sub_cancel, Finset.sum_range]
  have hB : ∀ u v, B u v = ∑ k, u k * v k := fun u v => rfl
  have hrefl : B.IsRefl := by
    intro u v h
    rw [hB] at h ⊢
    rw [← h]
    exact Finset.sum_congr rfl fun k _ => mul_comm _ _
  have hdis : Disjoint (LinearMap.range φ) (B.orthogonal (LinearMap.range φ)) := by
    rw [Submodule.disjoint_def]
    intro x hx ho
    have h0 := ho x hx
    rw [hB] at h0
    funext k
    have := (Finset.sum_eq_zero_iff_of_nonneg (fun k _ => mul_self_nonneg (x k))).mp h0 k (Finset.mem_univ k)
    simpa using this
  have hcompl := LinearMap.BilinForm.isCompl_orthogonal_of_restrict_nondegenerate hrefl
    (B.nondegenerate_restrict_of_disjoint_orthogonal hrefl hdis)
  have hy : (fun k : Fin xs.length => ys.getD k 0) ∈ LinearMap.range φ ⊔ B.orthogonal (LinearMap.range φ) := by
    rw [hcompl.sup_eq_top]; exact Submodule.mem_top
  obtain ⟨w, ⟨c0, hw⟩, o, ho, hwo⟩ := Submodule.mem_sup.mp hy
  have hsum : ∀ f : ℚ → ℚ → ℚ, (List.zipWith f xs ys).sum = ∑ k : Fin xs.length, f (xs.getD k 0) (ys.getD k 0) := by
    intro f
    have := masked_sum f (List.replicate xs.length true) xs ys (by simp) hl
    rw [maskList_all _ _ rfl, maskList_all _ _ hl] at this
    rw [this, Finset.sum_range]
    refine Finset.sum_congr rfl fun k _ => ?_
    rw [if_pos]
    rw [List.getD_eq_getElem?_getD, List.getElem?_replicate, if_pos k.isLt]
    rfl
  refine ⟨List.ofFn c0, fun _ => ⟨by simp, fun c hc => ?_⟩⟩
  rw [hsum, hsum]
  have hd : ∀ k : Fin xs.length, poly (List.ofFn c0) (xs.getD k 0) = w k := by
    intro k
    rw [← hφ _ (by simp) k, ← hw]
    have : (fun i : Fin (n + 1) => (List.ofFn c0).getD i 0) = c0 := by
      funext i
      rw [List.getD_eq_getElem?_getD, List.getElem?_eq_getElem (by rw [List.length_ofFn]; exact i.isLt), Option.getD_some, List.getElem_ofFn]
    rw [this]
  have hyk : ∀ k : Fin xs.length, ys.getD k 0 = w k + o k := fun k => (congrFun hwo k).symm
  have ho' : ∑ k, (φ (fun i => c.getD i 0) - w) k * o k = 0 := by
    have := ho (φ (fun i => c.getD i 0) - w) (Submodule.sub_mem _ ⟨_, rfl⟩ ⟨c0, hw⟩)
    rwa [hB] at this
  have e : ∑ k : Fin xs.length, (poly c (xs.getD k 0) - ys.getD k 0) ^ 2 =
      ∑ k : Fin xs.length, (poly (List.ofFn c0) (xs.getD k 0) - ys.getD k 0) ^ 2 +
        ∑ k, (φ (fun i => c.getD i 0) - w) k ^ 2 - 2 * ∑ k, (φ (fun i => c.getD i 0) - w) k * o k := by
    rw [Finset.mul_sum, ← Finset.sum_add_distrib, ← Finset.sum_sub_distrib]
    refine Finset.sum_congr rfl fun k _ => ?_
    rw [hd, hyk, Pi.sub_apply, hφ c hc]
    ring
  rw [e, ho']
  have : 0 ≤ ∑ k, (φ (fun i => c.getD i 0) - w) k ^ 2 := Finset.sum_nonneg fun k _ => sq_nonneg _
  linarith

theorem fitPower_run {pf : Nat → List ℚ → List ℚ → List ℚ} {spm power : List ℚ} {mask : List Bool} {order : Nat}
    (h1 : mask.length = spm.length) (h2 : mask.length = power.length) (h3 : maskList mask spm ≠ []) (h4 : spm ≠ []) :
    ∃ r, fitPower pf spm power mask order = .ok r := by
  unfold fitPower npMask
  rw [if_pos h1, if_pos h2]
  obtain ⟨m, hm, -⟩ := pyMinL_spec (spm.map (polyval (pf order (maskList mask spm) (maskList mask power)))) (by simpa using h4)
  simp only [bind, Except.bind, if_neg h3, hm]
  exact ⟨_, rfl⟩

/-- The fit of a falling power is negative at the end: the change to order 1 does not prevent that. -/
theorem C94_negative_false : ∃ (spm power : List ℚ) (mask : List Bool) (order : Nat), (∀ p ∈ power, 0 < p) ∧
    ∀ pf, LeastSquares pf → ∃ r, fitPower pf spm power mask order = .ok r ∧ ∃ x ∈ r.fit, x < 0 := by
  refine ⟨[0, 1, 2, 3], [1, 1 / 2, 1 / 4, 1 / 4], [true, true, false, false], 1, by decide +kernel, ?_⟩
  intro pf hpf
  obtain ⟨r, hr⟩ := fitPower_run (pf := pf) (spm := [0, 1, 2, 3]) (power := [1, 1 / 2, 1 / 4, 1 / 4])
    (mask := [true, true, false, false]) (order := 1) rfl rfl (by decide) (by decide)
  refine ⟨r, hr, ?_⟩
  obtain ⟨-, -, low, -, -, ho, hc, hf, -⟩ := fitPower_ok hr
  have hord : r.order = 1 := by rw [ho]; split <;> rfl
  have := (exact_coef hpf (spm := [0, 1, 2, 3]) (power := [1, 1 / 2, 1 / 4, 1 / 4]) (mask := [true, true, false, false]) (order := 1)
    rfl rfl (c := [-1 / 2, 1]) rfl (by decide +kernel) (s := {0, 1}) (by decide +kernel) (by decide +kernel)).1 3
  rw [hord] at hc
  rw [← hc] at this
  refine ⟨poly r.coef 3, by rw [hf]; simp, ?_⟩
  rw [this]
  decide +kernel

/-- After the change of the order, `chi2` divides by the degrees of freedom of the order before. -/
theorem C94_chi_false : ∃ (spm power : List ℚ) (mask : List Bool) (order : Nat), (∀ p ∈ power, 0 < p) ∧
    ∀ pf, LeastSquares pf → ∃ r x, fitPower pf spm power mask order = .ok r ∧ r.chi2 = some x ∧
      x * ((mask.count true : ℚ) - (r.order + 1)) ≠ misfit r.coef mask spm power := by
  refine ⟨[0, 1, 2, 3, 5], [4, 6, 6, 4, 1], [true, true, true, true, false], 2, by decide +kernel, ?_⟩
  intro pf hpf
  obtain ⟨r, hr⟩ := fitPower_run (pf := pf) (spm := [0, 1, 2, 3, 5]) (power := [4, 6, 6, 4, 1])
    (mask := [true, true, true, true, false]) (order := 2) rfl rfl (by decide) (by decide)
  obtain ⟨-, -, low, l1, l2, ho, hc, hf, hx⟩ := fitPower_ok hr
  have h5 := (exact_coef hpf (spm := [0, 1, 2, 3, 5]) (power := [4, 6, 6, 4, 1]) (mask := [true, true, true, true, false]) (order := 2)
    rfl rfl (c := [-1, 3, 4]) rfl (by decide +kernel) (s := {0, 1, 2}) (by decide +kernel) (by decide +kernel)).1 5
  have hlow : low < 0 := by
    refine (l2 _ (List.mem_map_of_mem (a := 5) (by simp))).trans_lt ?_
    rw [h5]
    decide +kernel
  rw [if_pos hlow] at ho
  obtain ⟨p1, -, -, p4, -⟩ := C94_fit_partial hpf hr
  rw [if_neg (by decide +kernel)] at hx
  refine ⟨r, _, hr, hx, ?_⟩
  rw [ho]
  have pos : 0 < misfit r.coef [true, true, true, true, false] [0, 1, 2, 3, 5] [4, 6, 6, 4, 1] := by
    rw [ho] at p1
    obtain ⟨a, b, hab⟩ : ∃ a b, r.coef = [a, b] := List.length_eq_two.mp p1
    rw [hab]
    simp [misfit, poly, Finset.sum_range_succ]
    nlinarith [sq_nonneg a, sq_nonneg (b - 5 + 3 / 2 * a)]
  have e : (([true, true, true, true, false] : List Bool).count true : ℚ) = 4 := by decide +kernel
  rw [e]
  push_cast
  intro h
  linarith

example : ∃ pf r, LeastSquares pf ∧ fitPower pf [0, 1, 2, 3] [1, 2, 0, 4] [true, true, false, true] 1 = .ok r ∧
    (∀ i, i < 4 → ([true, true, false, true] : List Bool).getD i false = true →
      ([1, 2, 0, 4] : List ℚ).getD i 0 = poly [1, 1] (([0, 1, 2, 3] : List ℚ).getD i 0)) ∧
    (∀ i, i < 4 → 0 ≤ poly [1, 1] (([0, 1, 2, 3] : List ℚ).getD i 0)) := by
  obtain ⟨pf, hpf⟩ := leastSquares_exists
  obtain ⟨r, hr⟩ := fitPower_run (pf := pf) (spm := [0, 1, 2, 3]) (power := [1, 2, 0, 4])
    (mask := [true, true, false, true]) (order := 1) rfl rfl (by decide) (by decide)
  exact ⟨pf, r, hpf, hr, by decide +kernel, by decide +kernel⟩

end Verif.Cal
