import Verif.Model.RingFit
import Verif.Props.C72
import Verif.Props.C74
import Verif.Props.C88

/-!
# C120 Fit of a ring feature: limits, flags, times and radial velocity
-/
namespace Verif.Fit
open Verif.Rsr Verif.Geo.Spec Verif.Geo

namespace Spec

/-- The number lies within the bounds; `none` is infinite. -/
def InBounds (lo hi : Option ℚ) (x : ℚ) : Prop := (∀ a, lo = some a → a ≤ x) ∧ (∀ b, hi = some b → x ≤ b)

/-- The mean rate of change between two samples. -/
def rate (rho t : List ℚ) (i j : Nat) : ℚ := (rho.getD j 0 - rho.getD i 0) / (t.getD j 0 - t.getD i 0)

/-- A time of the day: hour, minute and second in their ranges. -/
def ProperTime (t : FitTime) : Prop := 0 ≤ t.hour ∧ t.hour < 24 ∧ 0 ≤ t.minute ∧ t.minute < 60 ∧ 0 ≤ t.second ∧ t.second < 60

/-- Seconds from the beginning of day 0. -/
def seconds (t : FitTime) : ℚ := 86400 * t.doy + 3600 * t.hour + 60 * t.minute + t.second

end Spec
open Spec

/-! ### Limits and first guess -/

/-- **C120**, limits: whenever limits are found they contain the guess, they are those of the caller or 50 km on either side,
and the parameters of the first guess lie within the bounds of the fit. -/
theorem C120_start (func : List Char) (guess : ℚ) (lims : Option (List ℚ)) (l : ℚ × ℚ) (h : dataLims guess lims = .ok l) :
    l.1 < guess ∧ guess < l.2 ∧ (lims = some [l.1, l.2] ∨ l = (guess - 50, guess + 50)) ∧
    ∀ s, fitStart func guess l = some s → s.p0.length = s.lo.length ∧ s.p0.length = s.hi.length ∧
      ∀ i < s.p0.length, InBounds (s.lo.getD i none) (s.hi.getD i none) (s.p0.getD i 0) := by
  have hl : l.1 < guess ∧ guess < l.2 ∧ (lims = some [l.1, l.2] ∨ l = (guess - 50, guess + 50)) := by
    unfold dataLims at h
    split at h
    · split at h
      · cases h; exact ⟨by linarith, by linarith, .inr rfl⟩
      · split at h
        · rename_i hc
          cases h; exact ⟨hc.1, hc.2, .inl rfl⟩
        · cases h
    · cases h; exact ⟨by linarith, by linarith, .inr rfl⟩
  refine ⟨hl.1, hl.2.1, hl.2.2, fun s hs => ?_⟩
  obtain ⟨h1, h2, -⟩ := hl
  unfold fitStart at hs
  have four : ∀ i < 4, i = 0 ∨ i = 1 ∨ i = 2 ∨ i = 3 := by omega
  have five : ∀ i < 5, i = 0 ∨ i = 1 ∨ i = 2 ∨ i = 3 ∨ i = 4 := by omega
  split at hs
  · cases hs
    refine ⟨rfl, rfl, fun i hi => ?_⟩
    rcases four i hi with rfl | rfl | rfl | rfl <;> simp [InBounds] <;> first | exact ⟨h1.le, h2.le⟩ | norm_num
  · split at hs
    · cases hs
      refine ⟨rfl, rfl, fun i hi => ?_⟩
      rcases four i hi with rfl | rfl | rfl | rfl <;> simp [InBounds] <;> first | exact ⟨h1.le, h2.le⟩ | norm_num
    · split at hs
      · cases hs
        refine ⟨rfl, rfl, fun i hi => ?_⟩
        rcases five i hi with rfl | rfl | rfl | rfl | rfl <;> simp [InBounds] <;> first | exact ⟨h1.le, h2.le⟩ | norm_num
      · cases hs

example : dataLims 87500 (some [87400, 87600]) = .ok (87400, 87600) := by
  simp [dataLims]; norm_num

/-- The negation of **C120** for limits that do not contain the guess: instead of the announced limits of 50 km on either
side there is a `TypeError`. -/
theorem C120_limits_false (F : FitStart → List ℚ → List ℚ → CurveFit) (func : List Char) (guess a b : ℚ) (rows : List FitRow)
    (hf : func.takeWhile (· ≠ '_') ∈ funcNames) (hab : a ≤ b) (hg : guess ≤ a ∨ b ≤ guess) :
    ringFit F func guess (some [a, b]) rows = .error .type := by
  unfold ringFit
  rw [if_neg (not_not.2 hf)]
  have : dataLims guess (some [a, b]) = .error .type := by
    simp only [dataLims]
    rw [if_neg (not_lt.2 hab), if_neg]
    rintro ⟨h1, h2⟩
    rcases hg with h | h <;> linarith
  rw [this]; rfl

example : ringFit (fun _ _ _ => ⟨[], 0, 0⟩) "gauss".toList 87300 (some [87400, 87600]) [] = .error .type :=
  C120_limits_false _ _ _ _ _ _ (by decide) (by norm_num) (.inl (by norm_num))

/-- The negation of **C120** for names with an ending: they pass the check of the names and then fail, with a `KeyError` or an
`UnboundLocalError`. -/
theorem C120_names_false (F : FitStart → List ℚ → List ℚ → CurveFit) (guess : ℚ) (rows : List FitRow) :
    ∃ func : List Char, func.takeWhile (· ≠ '_') ∈ funcNames ∧
      (ringFit F func guess none rows = .error .key ∨ ringFit F func guess none rows = .error .unboundLocal) := by
  refine ⟨"logistic_left".toList, by decide, ?_⟩
  unfold ringFit
  rw [if_neg (by decide)]
  have h : ∀ l, fitStart "logistic_left".toList guess l = none := fun l => by
    unfold fitStart
    rw [if_neg (by decide), if_neg (by decide), if_neg (by decide)]
  simp only [dataLims, h, bind, Except.bind]
  split
  · exact .inl rfl
  · exact .inr rfl

/-! ### Flags -/

/-- **C120**, flags: the documented meaning for residuals below 1, for all fits. -/
theorem C120_flag_partial (f : CurveFit) (hr : f.rms < 1) :
    (fitFlag f = 2 ↔ |f.par.getD 1 0 - f.par.getD (f.par.length - 1) 0| < f.rms) ∧
    (fitFlag f = 3 ↔ f.rms ≤ |f.par.getD 1 0 - f.par.getD (f.par.length - 1) 0| ∧ 1 < f.err) ∧
    (fitFlag f = 0 ↔ f.rms ≤ |f.par.getD 1 0 - f.par.getD (f.par.length - 1) 0| ∧ f.err ≤ 1) := by
  have h1 : ¬ 1 < f.rms := by linarith
  unfold fitFlag
  simp only [hr, h1, and_true, or_false]
  by_cases ha : |f.par.getD 1 0 - f.par.getD (f.par.length - 1) 0| < f.rms
  · simp only [ha, if_true]
    refine ⟨by simp, ?_, ?_⟩
    · constructor
      · intro h; cases h
      · rintro ⟨h, -⟩; linarith
    · constructor
      · intro h; cases h
      · rintro ⟨h, -⟩; linarith
  · have hb := not_lt.1 ha
    simp only [ha, if_false, hb, true_and]
    by_cases he : 1 < f.err
    · have : ¬ f.err ≤ 1 := not_le.2 he
      simp [he, this]
    · have := not_lt.1 he
      simp [he, this]

example : fitFlag ⟨[87500, 1 / 2, -3, 0], 1 / 10, 1 / 20⟩ = 0 := by
  have := (C120_flag_partial ⟨[87500, 1 / 2, -3, 0], 1 / 10, 1 / 20⟩ (by norm_num)).2.2
  refine this.2 ⟨?_, by norm_num⟩
  simp
  norm_num [abs_of_pos]

/-- The negation of **C120** for the flag of features that are not detected: a feature smaller than the residuals is said to
be badly located (3) or even accepted (0) when the residuals are 1 or more. -/
theorem C120_flag_false :
    (∃ f : CurveFit, |f.par.getD 1 0 - f.par.getD (f.par.length - 1) 0| < f.rms ∧ f.err ≤ 1 ∧ fitFlag f = 3) ∧
    (∃ f : CurveFit, |f.par.getD 1 0 - f.par.getD (f.par.length - 1) 0| < f.rms ∧ fitFlag f = 0) := by
  refine ⟨⟨⟨[87500, 1 / 2, -3, 0], 1 / 2, 2⟩, ?_, ?_, ?_⟩, ⟨⟨[87500, 1 / 2, -3, 0], 1 / 2, 1⟩, ?_, ?_⟩⟩ <;> decide +kernel

/-- **C120**, flag 1: it is given exactly to features with at most five rows within the limits. -/
theorem C120_nodata (F : FitStart → List ℚ → List ℚ → CurveFit) (func : List Char) (guess : ℚ) (lims : Option (List ℚ))
    (rows : List FitRow) (r : RingFit) (h : ringFit F func guess lims rows = .ok r) (l : ℚ × ℚ) (hl : dataLims guess lims = .ok l) :
    r.flag = 1 ↔ (rows.filter fun r => l.1 < r.rho ∧ r.rho < l.2).length ≤ 5 := by
  unfold ringFit at h
  split at h
  · cases h
  · simp only [hl, bind, Except.bind] at h
    split at h
    · rename_i h5
      split at h
      · cases h
      · split at h
        · cases h
        · cases h
          refine ⟨fun hf => ?_, fun hf => by omega⟩
          exfalso
          unfold fitFlag at hf
          simp only at hf
          split at hf
          · omega
          · split at hf <;> omega
    · rename_i h5
      split at h
      · cases h
      · cases h
        exact ⟨fun _ => by omega, fun _ => rfl⟩

example : ∃ r, ringFit (fun _ _ _ => ⟨[], 0, 0⟩) "gauss".toList 87500 none [⟨87490, 10, 0, 1, 0⟩] = .ok r ∧ r.flag = 1 := by
  refine ⟨⟨1, 0, 0, 0, some 0, 0⟩, by decide +kernel, rfl⟩

theorem ringFit_few (F : FitStart → List ℚ → List ℚ → CurveFit) {func : List Char} {guess : ℚ} {lims : Option (List ℚ)}
    {rows : List FitRow} {l : ℚ × ℚ} {s : FitStart} (hf : func.takeWhile (· ≠ '_') ∈ funcNames)
    (hl : dataLims guess lims = .ok l) (h5 : ¬ 5 < (rows.filter fun r => l.1 < r.rho ∧ r.rho < l.2).length)
    (hs : fitStart func guess l = some s) : ringFit F func guess lims rows = .ok ⟨1, 0, 0, 0, some 0, 0⟩ := by
  unfold ringFit
  rw [if_neg (not_not.2 hf)]
  simp only [hl, bind, Except.bind, if_neg h5, hs]
  rfl

/-- The negation of **C120** for flag 1, "fewer data than the number of fit parameters": five rows are refused, although the
functions other than `voigt` have four parameters. -/
theorem C120_nodata_false (F : FitStart → List ℚ → List ℚ → CurveFit) :
    ∃ (rows : List FitRow) (r : RingFit), (∀ x ∈ rows, 87450 < x.rho ∧ x.rho < 87550) ∧ rows.length = 5 ∧
      (∀ s, fitStart "logistic".toList 87500 (87450, 87550) = some s → s.p0.length = 4) ∧
      ringFit F "logistic".toList 87500 none rows = .ok r ∧ r.flag = 1 := by
  refine ⟨[⟨87490, 10, 0, 1, 0⟩, ⟨87495, 10, 0, 2, 1⟩, ⟨87500, 10, 1, 3, 2⟩, ⟨87505, 10, 2, 4, 3⟩, ⟨87510, 10, 2, 5, 4⟩],
    ⟨1, 0, 0, 0, some 0, 0⟩, by simp; norm_num, rfl, ?_, ?_, rfl⟩
  · intro s hs
    cases hs
    rfl
  · exact ringFit_few F (by decide) (l := (87500 - 50, 87500 + 50)) rfl (by decide +kernel) (s := _) rfl

/-! ### Interpolated values -/

theorem countP_le_growing {x : List ℚ} (h : Growing x) (v : ℚ) :
    x.countP (· ≤ v) ≤ x.length ∧ ∀ j, j < x.length → (j < x.countP (· ≤ v) ↔ x.getD j 0 ≤ v) := by
  induction x with
  | nil => exact ⟨by simp, fun j hj => by simp at hj⟩
  | cons a x ih =>
    unfold Growing at h
    rw [List.pairwise_cons] at h
    obtain ⟨ih1, ih2⟩ := ih h.2
    rw [List.countP_cons]
    by_cases hv : a ≤ v
    · simp only [hv, decide_true, if_true]
      refine ⟨by simp; omega, fun j hj => ?_⟩
      cases j with
      | zero => simp [hv]
      | succ j =>
        have := ih2 j (by simpa using hj)
        rw [List.getD_cons_succ, ← this]
        omega
    · have z : x.countP (· ≤ v) = 0 := by
        rw [List.countP_eq_zero]
        intro p hp
        have := h.1 p hp
        simp only [decide_eq_true_eq, not_le]
        linarith [not_le.1 hv]
      simp only [hv, decide_false, z]
      refine ⟨by simp, fun j hj => ⟨fun h => by simp at h, fun h' => ?_⟩⟩
      cases j with
      | zero => simp at h'; exact absurd h' hv
      | succ j =>
        rw [List.getD_cons_succ] at h'
        have hj' : j < x.length := by simpa using hj
        rw [getD_at hj'] at h'
        have := h.1 x[j] (List.getElem_mem hj')
        linarith [not_le.1 hv]

/-- **C120**, times and longitude: for radii that rise (egress), every interpolated value lies on the polygon of the data. -/
theorem C120_interp_partial (x y : List ℚ) (h : Growing x) (hl : x.length = y.length) (h2 : 2 ≤ x.length) (v : ℚ)
    (h3 : x.getD 0 0 ≤ v) (h4 : v ≤ x.getD (x.length - 1) 0) : OnPolygon x y v (npInterp x y v) := by
  obtain ⟨c1, c2⟩ := countP_le_growing h v
  unfold npInterp
  simp only [if_neg (not_lt.2 h4), if_neg (not_lt.2 h3)]
  generalize hc : x.countP (· ≤ v) = c at c1 c2
  have hc0 : 0 < c := (c2 0 (by omega)).2 h3
  by_cases hn : c - 1 = x.length - 1
  · rw [if_pos hn, hn]
    have hv : v = x.getD (x.length - 1) 0 := le_antisymm h4 ((c2 (x.length - 1) (by omega)).1 (by omega))
    refine ⟨x.length - 2, 1, by omega, by omega, by norm_num, le_refl _, ?_, ?_⟩
    · rw [hv, show x.length - 2 + 1 = x.length - 1 by omega]; ring
    · rw [show x.length - 2 + 1 = x.length - 1 by omega]; ring
  · rw [if_neg hn]
    have h5 : x.getD (c - 1) 0 ≤ v := (c2 (c - 1) (by omega)).1 (by omega)
    have h6 : v < x.getD c 0 := by
      by_contra hcon
      have := (c2 c (by omega)).2 (not_lt.1 hcon)
      omega
    have hcc : c - 1 + 1 = c := by omega
    have hd : 0 < x.getD c 0 - x.getD (c - 1) 0 := by linarith
    refine ⟨c - 1, (v - x.getD (c - 1) 0) / (x.getD c 0 - x.getD (c - 1) 0), by omega, by omega, ?_, ?_, ?_, ?_⟩
    · exact div_nonneg (by linarith) hd.le
    · rw [div_le_one hd]; linarith
    · rw [hcc]; field_simp; ring
    · rw [hcc]; field_simp; ring

example : OnPolygon [10, 20, 40] [1, 2, 3] 30 (npInterp [10, 20, 40] [1, 2, 3] 30) :=
  C120_interp_partial [10, 20, 40] [1, 2, 3] (by unfold Growing; decide +kernel) rfl (by decide) _ (by decide +kernel)
    (by decide +kernel)

/-- The negation of **C120** for ingress profiles, in which the radius falls: wherever the feature lies between the first and
the last radius, its times and its longitude are those of the last row. -/
theorem C120_interp_false (x y : List ℚ) (v : ℚ) (h4 : x.getD (x.length - 1) 0 < v) :
    npInterp x y v = y.getD (x.length - 1) 0 := by
  unfold npInterp
  simp only [if_pos h4]

/-- The same for the whole fit: a feature exactly in the middle of an ingress profile of seven rows, one per second, gets the
time of the last row. -/
theorem C120_ingress_false : ∃ (F : FitStart → List ℚ → List ℚ → CurveFit) (rows : List FitRow) (r : RingFit),
    Falling (rows.map (·.rho)) ∧ ringFit F "logistic".toList 87500 none rows = .ok r ∧ r.flag = 0 ∧ r.centKm = 87500 ∧
    (⟨87500, 10, 1, 3, 2⟩ : FitRow) ∈ rows ∧ r.oetSpm = 6 ∧ ¬ OnPolygon (rows.map (·.rho)) (rows.map (·.oet)) r.centKm r.oetSpm := by
  refine ⟨fun _ _ _ => ⟨[87500, 1, -3, 0], 0, 0⟩, [⟨87530, 10, 2, 0, -1⟩, ⟨87520, 10, 2, 1, 0⟩, ⟨87510, 10, 2, 2, 1⟩,
    ⟨87500, 10, 1, 3, 2⟩, ⟨87490, 10, 0, 4, 3⟩, ⟨87480, 10, 0, 5, 4⟩, ⟨87470, 10, 0, 6, 5⟩],
    ⟨0, 87500, 6, 5, some (-10), 10⟩, ?_, ?_, rfl, rfl, by simp, rfl, ?_⟩
  · unfold Falling; decide +kernel
  · decide +kernel
  · rintro ⟨i, w, hi, -, w0, w1, e1, e2⟩
    have hi : i + 1 < 7 := by simpa using hi
    have : i = 0 ∨ i = 1 ∨ i = 2 ∨ i = 3 ∨ i = 4 ∨ i = 5 := by omega
    rcases this with rfl | rfl | rfl | rfl | rfl | rfl <;> simp at e1 e2 <;> linarith

/-! ### Radial velocity -/

theorem argmin_first {a : ℚ} {l : List ℚ} (h : ∀ y ∈ l, a ≤ y) : argmin (a :: l) = .ok 0 := by
  have gen : ∀ (l : List ℚ) (i b : Nat), (∀ y ∈ l, a ≤ y) → argminFrom i b a l = b := by
    intro l
    induction l with
    | nil => intros; rfl
    | cons x l ih =>
      intro i b hl
      unfold argminFrom
      rw [if_neg (not_lt.2 (hl x List.mem_cons_self))]
      exact ih _ _ fun y hy => hl y (List.mem_cons_of_mem _ hy)
  simp only [argmin, gen l 1 0 h]

theorem argmin_last {l : List ℚ} (hl : l ≠ []) (h : Falling l) : argmin l = .ok (l.length - 1) := by
  obtain ⟨i, e, x, h1, h2, -⟩ := argmin_get l hl
  have hp : 0 < l.length := List.length_pos_iff.2 hl
  have hi : i < l.length := by
    by_contra hc
    rw [List.getElem?_eq_none (by omega)] at h1; cases h1
  rw [e]
  congr 1
  by_contra hne
  have hlt : i < l.length - 1 := by omega
  have hx : l[i] = x := by rw [List.getElem?_eq_getElem hi] at h1; exact Option.some.inj h1
  have k := h2 (l.length - 1) (l[l.length - 1]'(by omega)) (List.getElem?_eq_getElem (by omega))
  have := List.pairwise_iff_getElem.mp h i (l.length - 1) hi (by omega) hlt
  rw [hx] at this
  linarith

theorem split_growing {x : List ℚ} (h : Growing x) (c : ℚ) : ∀ k, k ≤ x.length → (∀ i < k, x.getD i 0 ≤ c) →
    (∀ i, k ≤ i → i < x.length → c < x.getD i 0) → x.filter (· ≤ c) = x.take k ∧ x.filter (c < ·) = x.drop k := by
  induction x with
  | nil => intro k hk _ _; simp
  | cons a x ih =>
    intro k hk h1 h2
    unfold Growing at h
    rw [List.pairwise_cons] at h
    cases k with
    | zero =>
      have ha : c < a := by simpa using h2 0 (le_refl _) (by simp)
      have hall : ∀ y ∈ x, c < y := fun y hy => by linarith [h.1 y hy]
      constructor
      · rw [List.take_zero, List.filter_eq_nil_iff]
        intro y hy
        rcases List.mem_cons.1 hy with rfl | hy
        · simpa using ha
        · simpa using hall y hy
      · rw [List.drop_zero, List.filter_eq_self]
        intro y hy
        rcases List.mem_cons.1 hy with rfl | hy
        · simpa using ha
        · simpa using hall y hy
    | succ k =>
      have ha : a ≤ c := by simpa using h1 0 (by omega)
      obtain ⟨e1, e2⟩ := ih h.2 k (by simpa using hk) (fun i hi => by simpa using h1 (i + 1) (by omega))
        (fun i hi hl => by simpa using h2 (i + 1) (by omega) (by simpa using hl))
      constructor
      · rw [List.filter_cons_of_pos (by simpa using ha), e1, List.take_succ_cons]
      · rw [List.filter_cons_of_neg (by simpa using ha), e2, List.drop_succ_cons]

theorem split_falling {x : List ℚ} (h : Falling x) (c : ℚ) : ∀ k, k ≤ x.length → (∀ i < k, c < x.getD i 0) →
    (∀ i, k ≤ i → i < x.length → x.getD i 0 ≤ c) → x.filter (c < ·) = x.take k ∧ x.filter (· ≤ c) = x.drop k := by
  induction x with
  | nil => intro k hk _ _; simp
  | cons a x ih =>
    intro k hk h1 h2
    unfold Falling at h
    rw [List.pairwise_cons] at h
    cases k with
    | zero =>
      have ha : a ≤ c := by simpa using h2 0 (le_refl _) (by simp)
      have hall : ∀ y ∈ x, y ≤ c := fun y hy => by linarith [h.1 y hy]
      constructor
      · rw [List.take_zero, List.filter_eq_nil_iff]
        intro y hy
        rcases List.mem_cons.1 hy with rfl | hy
        · simpa using ha
        · simpa using hall y hy
      · rw [List.drop_zero, List.filter_eq_self]
        intro y hy
        rcases List.mem_cons.1 hy with rfl | hy
        · simpa using ha
        · simpa using hall y hy
    | succ k =>
      have ha : c < a := by simpa using h1 0 (by omega)
      obtain ⟨e1, e2⟩ := ih h.2 k (by simpa using hk) (fun i hi => by simpa using h1 (i + 1) (by omega))
        (fun i hi hl => by simpa using h2 (i + 1) (by omega) (by simpa using hl))
      constructor
      · rw [List.filter_cons_of_pos (by simpa using ha), e1, List.take_succ_cons]
      · rw [List.filter_cons_of_neg (by simpa using ha), e2, List.drop_succ_cons]

/-- Division with the order of the two samples exchanged. -/
theorem quot_swap (a b c d : ℚ) : quot (a - b) (c - d) = quot (b - a) (d - c) := by
  unfold quot
  by_cases h : c - d = 0
  · rw [if_pos h, if_pos (by linarith)]
  · have h' : d - c ≠ 0 := fun e => h (by linarith)
    rw [if_neg h, if_neg h']
    congr 1
    rw [show a - b = -(b - a) by ring, show c - d = -(d - c) by ring, neg_div_neg_eq]

/-- **C120**, radial velocity, what is returned: for radii that rise or fall through the feature between samples `k - 1` and
`k`, the result is the mean velocity between the **first** sample of the file and sample `k - 1`. -/
theorem C120_velocity_is (rho ret : List ℚ) (c : ℚ) (k : Nat) (hk : 0 < k) (hkl : k < rho.length)
    (h : (Growing rho ∧ rho.getD (k - 1) 0 ≤ c ∧ c < rho.getD k 0) ∨ (Falling rho ∧ rho.getD k 0 ≤ c ∧ c < rho.getD (k - 1) 0)) :
    radialVelocity rho ret c = .ok (quot (rho.getD (k - 1) 0 - rho.getD 0 0) (ret.getD (k - 1) 0 - ret.getD 0 0)) := by
  obtain ⟨a, x, rfl⟩ : ∃ a x, rho = a :: x := by
    cases rho with
    | nil => simp at hkl
    | cons a x => exact ⟨a, x, rfl⟩
  rcases h with ⟨h, h1, h2⟩ | ⟨h, h1, h2⟩
  · obtain ⟨e1, e2⟩ := split_growing h c k hkl.le (fun i hi => (h.le (by omega) (by omega)).trans h1)
      (fun i hi hl => lt_of_lt_of_le h2 (h.le hi hl))
    have hne : (a :: x).take k ≠ [] := by
      intro e
      have := congrArg List.length e
      rw [List.length_take, List.length_nil] at this
      omega
    have hmax : argmax ((a :: x).take k) = .ok (k - 1) := by
      have hf : Falling (((a :: x).take k).map fun y => -y) := by
        unfold Falling
        rw [List.pairwise_map]
        refine (List.Pairwise.sublist (List.take_sublist k (a :: x)) h).imp ?_
        intro p q hpq
        linarith
      unfold argmax
      rw [argmin_last (by simpa using hne) hf, List.length_map, List.length_take, Nat.min_eq_left hkl.le]
    have hmin : argmin ((a :: x).drop k) = .ok 0 := by
      rw [List.drop_eq_getElem_cons hkl]
      refine argmin_first fun y hy => ?_
      obtain ⟨j, hj, rfl⟩ := List.getElem_of_mem hy
      have hj' : k + 1 + j < (a :: x).length := by simp at hj ⊢; omega
      rw [List.getElem_drop]
      exact (List.pairwise_iff_getElem.mp h k (k + 1 + j) hkl hj' (by omega)).le
    simp only [radialVelocity, e1, e2, hmax, hmin, bind, Except.bind, pure, Except.pure]
    rw [quot_swap]
  · have hle : ∀ i j, i ≤ j → j < (a :: x).length → (a :: x).getD j 0 ≤ (a :: x).getD i 0 := by
      intro i j hij hj
      rcases Nat.lt_or_eq_of_le hij with hlt | rfl
      · rw [getD_at hj, getD_at (hlt.trans hj)]
        exact (List.pairwise_iff_getElem.mp h i j (hlt.trans hj) hj hlt).le
      · exact le_refl _
    obtain ⟨e1, e2⟩ := split_falling h c k hkl.le (fun i hi => lt_of_lt_of_le h2 (hle i (k - 1) (by omega) (by omega)))
      (fun i hi hl => (hle k i hi hl).trans h1)
    have hne : (a :: x).take k ≠ [] := by
      intro e
      have := congrArg List.length e
      rw [List.length_take, List.length_nil] at this
      omega
    have hmin : argmin ((a :: x).take k) = .ok (k - 1) := by
      rw [argmin_last hne (List.Pairwise.sublist (List.take_sublist k (a :: x)) h), List.length_take, Nat.min_eq_left hkl.le]
    have hmax : argmax ((a :: x).drop k) = .ok 0 := by
      unfold argmax
      rw [List.drop_eq_getElem_cons hkl, List.map_cons]
      refine argmin_first fun y hy => ?_
      obtain ⟨z, hz, rfl⟩ := List.mem_map.1 hy
      obtain ⟨j, hj, rfl⟩ := List.getElem_of_mem hz
      have hj' : k + 1 + j < (a :: x).length := by simp at hj ⊢; omega
      rw [List.getElem_drop]
      have := List.pairwise_iff_getElem.mp h k (k + 1 + j) hkl hj' (by omega)
      exact (neg_le_neg this.le)
    simp only [radialVelocity, e1, e2, hmax, hmin, bind, Except.bind, pure, Except.pure]

example : radialVelocity [100, 110, 111, 112] [0, 1, 2, 3] (223 / 2) = .ok (quot 11 2) := by
  have := C120_velocity_is [100, 110, 111, 112] [0, 1, 2, 3] (223 / 2) 3 (by decide) (by decide)
    (.inl ⟨by unfold Growing; decide +kernel, by decide +kernel, by decide +kernel⟩)
  rw [this]
  norm_num

/-- **C120**, radial velocity at the feature: right if the velocity is the same throughout the file.  (The feature must lie
behind the second sample.) -/
theorem C120_velocity_partial (rho ret : List ℚ) (c a v : ℚ) (k : Nat) (hk : 1 < k) (hkl : k < rho.length)
    (h : (Growing rho ∧ rho.getD (k - 1) 0 ≤ c ∧ c < rho.getD k 0) ∨ (Falling rho ∧ rho.getD k 0 ≤ c ∧ c < rho.getD (k - 1) 0))
    (hv : ∀ i < rho.length, rho.getD i 0 = a + v * ret.getD i 0) : radialVelocity rho ret c = .ok (some v) := by
  rw [C120_velocity_is rho ret c k (by omega) hkl h]
  have h0 := hv 0 (by omega)
  have h1 := hv (k - 1) (by omega)
  have hne : rho.getD (k - 1) 0 ≠ rho.getD 0 0 := by
    rcases h with ⟨h, -⟩ | ⟨h, -⟩
    · exact (h.lt (by omega) (by omega)).ne'
    · rw [getD_at (by omega), getD_at (by omega)]
      exact (List.pairwise_iff_getElem.mp h 0 (k - 1) (by omega) (by omega) (by omega)).ne
  have hd : ret.getD (k - 1) 0 - ret.getD 0 0 ≠ 0 := fun e => hne (by rw [h0, h1, sub_eq_zero.1 e])
  unfold quot
  rw [if_neg hd, h0, h1]
  congr 2
  field_simp
  ring

example : radialVelocity [60, 50, 40, 30] [0, 1, 2, 3] 35 = .ok (some (-10)) :=
  C120_velocity_partial _ _ _ 60 (-10) 3 (by decide) (by decide) (.inr ⟨by unfold Falling; decide +kernel, by decide +kernel, by decide +kernel⟩)
    (by
      intro i hi
      have : i = 0 ∨ i = 1 ∨ i = 2 ∨ i = 3 := by simp at hi; omega
      rcases this with rfl | rfl | rfl | rfl <;> norm_num)

/-- The negation of **C120** for the radial velocity: between samples 2 and 3, where the feature lies, the radius changes by
1 km/s, and 5.5 km/s are returned; a feature between the first two samples has no velocity (NaN); a centre below all
radii is a `ValueError`. -/
theorem C120_velocity_false :
    (radialVelocity [100, 110, 111, 112] [0, 1, 2, 3] (223 / 2) = .ok (some (11 / 2)) ∧
      Spec.rate [100, 110, 111, 112] [0, 1, 2, 3] 2 3 = 1) ∧
    radialVelocity [100, 110, 111, 112] [0, 1, 2, 3] 105 = .ok none ∧
    radialVelocity [100, 110, 111, 112] [0, 1, 2, 3] 99 = .error .value := by
  refine ⟨⟨?_, ?_⟩, ?_, ?_⟩ <;> decide +kernel

/-! ### The whole result -/

theorem ringFit_enough {F : FitStart → List ℚ → List ℚ → CurveFit} {func : List Char} {guess : ℚ} {lims : Option (List ℚ)} {rows : List FitRow}
    {r : RingFit} (h : ringFit F func guess lims rows = .ok r) {l : ℚ × ℚ} (hl : dataLims guess lims = .ok l) (h1 : r.flag ≠ 1) :
    5 < (rows.filter fun r => l.1 < r.rho ∧ r.rho < l.2).length ∧
    ∃ v, radialVelocity (rows.map (·.rho)) (rows.map (·.ret)) r.centKm = .ok v ∧ r.rhoDot = v ∧
      r.oetSpm = npInterp ((rows.filter fun r => l.1 < r.rho ∧ r.rho < l.2).map (·.rho)) ((rows.filter fun r => l.1 < r.rho ∧ r.rho < l.2).map (·.oet)) r.centKm ∧
      r.retSpm = npInterp ((rows.filter fun r => l.1 < r.rho ∧ r.rho < l.2).map (·.rho)) ((rows.filter fun r => l.1 < r.rho ∧ r.rho < l.2).map (·.ret)) r.centKm ∧
      r.ilong = npInterp ((rows.filter fun r => l.1 < r.rho ∧ r.rho < l.2).map (·.rho)) ((rows.filter fun r => l.1 < r.rho ∧ r.rho < l.2).map (·.lamb)) r.centKm := by
  unfold ringFit at h
  split at h
  · cases h
  · simp only [hl, bind, Except.bind] at h
    split at h
    · rename_i h5
      refine ⟨h5, ?_⟩
      split at h
      · cases h
      · split at h
        · cases h
        · rename_i v hv
          cases h
          exact ⟨v, hv, rfl, rfl, rfl, rfl⟩
    · split at h
      · cases h
      · cases h
        exact absurd rfl h1

/-- **C120**, the whole result for egress: if the radius rises steadily with the ring event time through the whole file and the centre lies
among the rows within the limits, the times and the longitude lie on the polygon of these rows, and the velocity is that of the file. -/
theorem C120_fit_partial {F : FitStart → List ℚ → List ℚ → CurveFit} {func : List Char} {guess : ℚ} {lims : Option (List ℚ)} {rows : List FitRow}
    {r : RingFit} (h : ringFit F func guess lims rows = .ok r) {l : ℚ × ℚ} (hl : dataLims guess lims = .ok l) (h1 : r.flag ≠ 1)
    (hg : Growing (rows.map (·.rho))) {m : List FitRow} (hm : m = rows.filter fun r => l.1 < r.rho ∧ r.rho < l.2)
    (hlo : (m.map (·.rho)).getD 0 0 ≤ r.centKm) (hhi : r.centKm ≤ (m.map (·.rho)).getD (m.length - 1) 0) :
    OnPolygon (m.map (·.rho)) (m.map (·.oet)) r.centKm r.oetSpm ∧ OnPolygon (m.map (·.rho)) (m.map (·.ret)) r.centKm r.retSpm ∧
      OnPolygon (m.map (·.rho)) (m.map (·.lamb)) r.centKm r.ilong ∧
      ∀ (k : Nat) (a v : ℚ), 1 < k → k < rows.length → (rows.map (·.rho)).getD (k - 1) 0 ≤ r.centKm → r.centKm < (rows.map (·.rho)).getD k 0 →
        (∀ q ∈ rows, q.rho = a + v * q.ret) → r.rhoDot = some v := by
  obtain ⟨h5, w, hw, e1, e2, e3, e4⟩ := ringFit_enough h hl h1
  rw [← hm] at h5 e2 e3 e4
  have hgm : Growing (m.map (·.rho)) := by
    rw [hm]
    exact List.Pairwise.sublist (List.Sublist.map _ List.filter_sublist) hg
  have hl2 : 2 ≤ (m.map (·.rho)).length := by rw [List.length_map]; omega
  have hhi' : r.centKm ≤ (m.map (·.rho)).getD ((m.map (·.rho)).length - 1) 0 := by rw [List.length_map]; exact hhi
  refine ⟨?_, ?_, ?_, ?_⟩
  · rw [e2]; exact C120_interp_partial _ _ hgm (by simp) hl2 _ hlo hhi'
  · rw [e3]; exact C120_interp_partial _ _ hgm (by simp) hl2 _ hlo hhi'
  · rw [e4]; exact C120_interp_partial _ _ hgm (by simp) hl2 _ hlo hhi'
  · intro k a v hk hkl hk1 hk2 hv
    rw [e1]
    have := C120_velocity_partial (rows.map (·.rho)) (rows.map (·.ret)) r.centKm a v k hk (by rw [List.length_map]; exact hkl) (.inl ⟨hg, hk1, hk2⟩) (by
      intro i hi
      rw [List.length_map] at hi
      rw [getD_at (by rw [List.length_map]; exact hi), getD_at (by rw [List.length_map]; exact hi), List.getElem_map, List.getElem_map]
      exact hv _ (List.getElem_mem hi))
    rw [this] at hw
    cases hw
    rfl

/-- Eight rows, about 10 km/s at first and 1 km/s later; the first row lies outside the limits. -/
def twoSpeeds : List FitRow :=
  [⟨87440, 10, 0, 0, 1⟩, ⟨87497, 11, 0, 6, 7⟩, ⟨87498, 12, 0, 7, 8⟩, ⟨87499, 13, 0, 8, 9⟩, ⟨87500, 14, 0, 9, 11⟩, ⟨87501, 15, 0, 10, 12⟩,
    ⟨87502, 16, 0, 11, 13⟩, ⟨87503, 17, 0, 12, 14⟩]

/-- The negation of **C120** for the velocity in the whole fit: the feature at 87500.5 km, where the radius changes by 1 km/s, gets 6 km/s, the mean since the first row of the file, which lies outside the limits. -/
theorem C120_fit_velocity_false : ∃ r, ringFit (fun _ _ _ => ⟨[87500 + 1 / 2, 1, -3, 0], 0, 0⟩) "logistic".toList 87500 none twoSpeeds = .ok r ∧
    r.centKm = 87500 + 1 / 2 ∧ r.flag = 0 ∧ r.oetSpm = 9 + 1 / 2 ∧ r.ilong = 14 + 1 / 2 ∧ r.rhoDot = some 6 := by
  refine ⟨⟨0, 87500 + 1 / 2, 9 + 1 / 2, 11 + 1 / 2, some 6, 14 + 1 / 2⟩, by decide +kernel, rfl, rfl, rfl, rfl, rfl⟩

example : ∃ r, ringFit (fun _ _ _ => ⟨[87500 + 1 / 2, 1, -3, 0], 0, 0⟩) "logistic".toList 87500 none
      [⟨87440, 10, 0, 0, 100⟩, ⟨87496, 11, 0, 6, 128⟩, ⟨87498, 12, 0, 7, 129⟩, ⟨87500, 14, 0, 9, 130⟩, ⟨87502, 15, 0, 11, 131⟩,
        ⟨87504, 16, 0, 12, 132⟩, ⟨87506, 17, 0, 14, 133⟩] = .ok r ∧ r.oetSpm = 9 + 1 / 2 ∧ r.rhoDot = some 2 := by
  refine ⟨⟨0, 87500 + 1 / 2, 9 + 1 / 2, 130 + 1 / 4, some 2, 14 + 1 / 4⟩, by decide +kernel, rfl, rfl⟩

/-! ### The time as text -/

/-- **C120**, time of the day: for every time before 0.5e-8 s to the full minute, hour, minute and second are in their
ranges and give the time to half of the last digit. -/
theorem C120_time_partial (doy : ℤ) (spm : ℚ) (h0 : 0 ≤ spm) (h1 : spm < 86400) :
    let t := revinfo2utc doy spm
    t.doy = doy ∧ 0 ≤ t.hour ∧ t.hour < 24 ∧ 0 ≤ t.minute ∧ t.minute < 60 ∧ 0 ≤ t.second ∧ t.second ≤ 60 ∧
      |seconds t - (86400 * doy + spm)| ≤ 1 / (2 * 10 ^ 8) ∧
      ((∀ n : ℤ, 0 ≤ n → spm < 60 * n → spm < 60 * n - 1 / 10 ^ 8) → ProperTime t) := by
  intro t
  have hle : ¬ 86400 < spm := not_lt.2 h1.le
  have ht : t = ⟨doy, ⌊spm / 3600⌋, ⌊(spm - 3600 * ⌊spm / 3600⌋) / 60⌋,
      pyRound ((spm - 3600 * ⌊spm / 3600⌋ - 60 * ⌊(spm - 3600 * ⌊spm / 3600⌋) / 60⌋) * 10 ^ 8) / 10 ^ 8⟩ := by
    show revinfo2utc doy spm = _
    simp only [revinfo2utc, if_neg hle]
  generalize hh : ⌊spm / 3600⌋ = h at ht
  generalize hm : ⌊(spm - 3600 * h) / 60⌋ = m at ht
  have a1 : (h : ℚ) ≤ spm / 3600 := by rw [← hh]; exact Int.floor_le _
  have a2 : spm / 3600 < h + 1 := by rw [← hh]; exact Int.lt_floor_add_one _
  have b1 : (m : ℚ) ≤ (spm - 3600 * h) / 60 := by rw [← hm]; exact Int.floor_le _
  have b2 : (spm - 3600 * h) / 60 < m + 1 := by rw [← hm]; exact Int.lt_floor_add_one _
  rw [le_div_iff₀ (by norm_num)] at a1 b1
  rw [div_lt_iff₀ (by norm_num)] at a2 b2
  have hh0 : 0 ≤ h := by
    rw [← hh]; exact Int.floor_nonneg.2 (by positivity)
  have hh1 : h < 24 := by
    have : (h : ℚ) < 24 := by linarith
    exact_mod_cast this
  have hm0 : 0 ≤ m := by
    rw [← hm]; exact Int.floor_nonneg.2 (div_nonneg (by linarith) (by norm_num))
  have hm1 : m < 60 := by
    have : (m : ℚ) < 60 := by linarith
    exact_mod_cast this
  have c0 : 0 ≤ spm - 3600 * h - 60 * m := by linarith
  have c1 : spm - 3600 * h - 60 * m < 60 := by linarith
  have r := pyRound_err ((spm - 3600 * h - 60 * m) * 10 ^ 8)
  have r0 := pyRound_nonneg (x := (spm - 3600 * h - 60 * m) * 10 ^ 8) (by positivity)
  generalize pyRound ((spm - 3600 * h - 60 * m) * 10 ^ 8) = n at ht r r0
  have r0' : (0 : ℚ) ≤ n := by exact_mod_cast r0
  rw [abs_le] at r
  have n1 : n ≤ 60 * 10 ^ 8 := by
    have : (n : ℚ) < 60 * 10 ^ 8 + 1 := by linarith
    have : n < 60 * 10 ^ 8 + 1 := by exact_mod_cast this
    omega
  have n1' : (n : ℚ) ≤ 60 * 10 ^ 8 := by exact_mod_cast n1
  rw [ht]
  refine ⟨rfl, hh0, hh1, hm0, hm1, by positivity, ?_, ?_, ?_⟩
  · rw [div_le_iff₀ (by norm_num)]; exact n1'
  · have e : seconds ⟨doy, h, m, n / 10 ^ 8⟩ - (86400 * doy + spm) = (n - (spm - 3600 * h - 60 * m) * 10 ^ 8) / 10 ^ 8 := by
      simp only [seconds]; field_simp; ring
    rw [e, abs_div, abs_of_pos (by norm_num : (0 : ℚ) < 10 ^ 8), div_le_iff₀ (by norm_num)]
    refine (abs_le.2 r).trans ?_
    norm_num
  · intro hfull
    refine ⟨hh0, hh1, hm0, hm1, by positivity, ?_⟩
    have := hfull (60 * h + m + 1) (by omega) (by push_cast; linarith)
    push_cast at this
    show (n : ℚ) / 10 ^ 8 < 60
    rw [div_lt_iff₀ (by norm_num)]
    linarith

example : revinfo2utc 123 (45296 + 1 / 4) = ⟨123, 12, 34, 56 + 1 / 4⟩ := by decide +kernel

/-- **C120**, time of the next day: seconds beyond midnight count for the next day of the year. -/
theorem C120_time_next (doy : ℤ) (spm : ℚ) (h0 : 86400 < spm) (h1 : spm < 2 * 86400) :
    let t := revinfo2utc doy spm
    t.doy = doy + 1 ∧ 0 ≤ t.hour ∧ t.hour < 24 ∧ 0 ≤ t.minute ∧ t.minute < 60 ∧ 0 ≤ t.second ∧ t.second ≤ 60 ∧
      |seconds t - (86400 * doy + spm)| ≤ 1 / (2 * 10 ^ 8) := by
  have e : revinfo2utc doy spm = revinfo2utc (doy + 1) (spm - 86400) := by
    have hn : ¬86400 < spm - 86400 := by linarith
    simp only [revinfo2utc, if_pos h0, if_neg hn]
  obtain ⟨a1, a2, a3, a4, a5, a6, a7, a8, -⟩ := C120_time_partial (doy + 1) (spm - 86400) (by linarith) (by linarith)
  simp only [e]
  refine ⟨a1, a2, a3, a4, a5, a6, a7, ?_⟩
  have : (86400 : ℚ) * ((doy + 1 : ℤ) : ℚ) + (spm - 86400) = 86400 * doy + spm := by push_cast; ring
  rw [this] at a8
  exact a8

example : revinfo2utc 123 (86400 + 3661) = ⟨124, 1, 1, 1⟩ := by decide +kernel

/-- The negation of **C120** for the time: just before a full minute the seconds are 60; midnight is hour 24; and the day
after day 365 of 2005 is day 366 of 2005. -/
theorem C120_time_false :
    (revinfo2utc 123 (60 - 1 / 10 ^ 9)).second = 60 ∧ (revinfo2utc 123 86400).hour = 24 ∧
    (featureTime 365 (86400 + 10)).doy = 366 := by
  refine ⟨?_, ?_, ?_⟩ <;> decide +kernel

end Verif.Fit
