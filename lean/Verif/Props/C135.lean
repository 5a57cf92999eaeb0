import Verif.Props.C134
import Mathlib.Tactic.FieldSimp
import Mathlib.Tactic.LinearCombination

/-!
# C135: correction of the radii for the trajectory
-/
namespace Verif.RadCorr
open Verif.Geo Verif.Geo.Spec Verif.Cal
namespace Spec

/-- The last number given for a quantity of an occultation; 0 if there is none. -/
def lastGiven (name key : List Char) (lines : List Line) : ℚ :=
  match (lines.filter fun l => decide (name <:+: l.text) && decide (key <:+: l.text)).getLast? with
  | some l => l.fifth.getD 0
  | none => 0

/-- The correction for a shift `dt` in time and a scale `alpha` per 1000 km at a point with the radius `r` and the velocity `v`. -/
def shift (dt alpha r v : ℚ) : ℚ := v * dt - alpha * ((r - 100000) / 1000)

end Spec

/-- The key words of the two quantities. -/
def keyTime (dsn : List Char) : List Char := 'D' :: dsn ++ "_dt".toList
def keyScale (dsn : List Char) : List Char := 'D' :: dsn ++ "_dr/dR1000".toList

/-- **C135.** The coefficients are the last ones given for the occultation and station; 0 if none is given. -/
theorem C135_coefficients (name dsn : List Char) (lines : List Line) (h : ∀ l ∈ lines, l.fifth.isSome) :
    coefficients name dsn lines = .ok (Spec.lastGiven name (keyTime dsn) lines, Spec.lastGiven name (keyScale dsn) lines) := by
  induction lines using List.reverseRecOn with
  | nil => rfl
  | append_singleton lines l ih =>
    have ih := ih fun x hx => h x (List.mem_append_left _ hx)
    obtain ⟨v, hv⟩ := Option.isSome_iff_exists.1 (h l (by simp))
    unfold coefficients at ih ⊢
    rw [List.foldlM_append, ih]
    unfold Spec.lastGiven
    simp only [List.filter_append, List.foldlM_cons, List.foldlM_nil, bind, Except.bind, pure, Except.pure]
    rw [show ('D' :: dsn ++ "_dt".toList) = keyTime dsn from rfl, show ('D' :: dsn ++ "_dr/dR1000".toList) = keyScale dsn from rfl]
    by_cases h1 : name <:+: l.text <;> by_cases h2 : keyTime dsn <:+: l.text <;> by_cases h3 : keyScale dsn <:+: l.text <;>
      simp [h1, h2, h3, hv]

example : coefficients "RSS_007E_X43".toList "43".toList
    [⟨"RSS_007E_X43 D43_dt".toList, some 1⟩, ⟨"RSS_008E_X43 D43_dt".toList, some 2⟩, ⟨"RSS_007E_X43 D43_dr/dR1000".toList, some 4⟩,
      ⟨"RSS_007E_X43 D43_dt".toList, some 3⟩] = .ok (3, 4) := by decide +kernel

/-- What a successful run computed. -/
theorem trajectory_ok {rho : Pool → ℚ → Option ℚ} {table : Int → Option (List Line)} {name dsn : List Char} {epoch : ℚ} {fit : Int}
    {verbose : Bool} {nmax : Nat} {radii et : List ℚ} {pool : Pool} {o : List ℚ × List ℚ × List ℚ}
    (h : (trajectoryCorrection rho table name dsn epoch fit verbose nmax radii et pool).out = .ok o) :
    ∃ again pole corr lines dt alpha, (thinned et nmax).mapM (rho pool) = some again ∧ fittedPole epoch fit = some pole ∧
      (thinned et nmax).mapM (rho pole) = some corr ∧ table fit = some lines ∧ coefficients name dsn lines = .ok (dt, alpha) ∧
      2 ≤ (thinned et nmax).length ∧
      (trajectoryCorrection rho table name dsn epoch fit verbose nmax radii et pool).pool = ⟨pool.ra.take 3, pool.dec.take 3⟩ ∧
      o = if nmax < et.length then
          (et.map (interp1d (thinned et nmax) ((List.range (thinned et nmax).length).map fun i =>
              gradientAt corr (thinned et nmax) i * dt - alpha * (corr.getD i 0 - 100000) / 1000)),
            et.map (interp1d (thinned et nmax) again), et.map (interp1d (thinned et nmax) corr))
        else ((List.range (thinned et nmax).length).map fun i =>
              gradientAt corr (thinned et nmax) i * dt - alpha * (corr.getD i 0 - 100000) / 1000, again, corr) := by
  unfold trajectoryCorrection at h ⊢
  simp only at h ⊢
  cases h1 : (thinned et nmax).mapM (rho pool) with
  | none => simp [h1] at h
  | some again =>
    simp only [h1] at h ⊢
    obtain ⟨rc, hrc⟩ : ∃ rc, (if nmax < et.length then et.map (interp1d (thinned et nmax) again) else again) = rc := ⟨_, rfl⟩
    simp only [hrc] at h ⊢
    by_cases hplot : verbose = true ∧ rc.length ≠ radii.length
    · rw [if_pos hplot] at h
      cases h
    rw [if_neg hplot] at h ⊢
    unfold gdpool at h ⊢
    by_cases hr : pool.ra = []
    · simp [hr] at h
    by_cases hd : pool.dec = []
    · simp [hd, hr] at h
    simp only [hr, hd, if_false] at h ⊢
    cases h2 : fittedPole epoch fit with
    | none => simp [h2] at h
    | some pole =>
      simp only [h2] at h ⊢
      cases h3 : (thinned et nmax).mapM (rho pole) with
      | none => simp [h3] at h
      | some corr =>
        simp only [h3] at h ⊢
        cases h4 : table fit with
        | none => simp [h4] at h
        | some lines =>
          simp only [h4] at h ⊢
          cases h5 : coefficients name dsn lines with
          | error e => simp [h5] at h
          | ok c =>
            obtain ⟨dt, alpha⟩ := c
            simp only [h5] at h ⊢
            by_cases hl : (thinned et nmax).length < 2
            · rw [if_pos hl] at h
              cases h
            rw [if_neg hl] at h ⊢
            refine ⟨again, pole, corr, lines, dt, alpha, rfl, rfl, h3, rfl, h5, by omega, rfl, ?_⟩
            injection h with h
            rw [← h, ← hrc]
            by_cases hn : nmax < et.length <;> simp [hn]

/-- **C135.** After a correction the kernel pool has its own pole again, if that has no more than three coefficients. -/
theorem C135_restored_partial (rho : Pool → ℚ → Option ℚ) (table : Int → Option (List Line)) (name dsn : List Char) (epoch : ℚ) (fit : Int)
    (verbose : Bool) (nmax : Nat) (radii et : List ℚ) (pool : Pool) (h3 : pool.ra.length ≤ 3 ∧ pool.dec.length ≤ 3)
    {o : List ℚ × List ℚ × List ℚ} (h : (trajectoryCorrection rho table name dsn epoch fit verbose nmax radii et pool).out = .ok o) :
    (trajectoryCorrection rho table name dsn epoch fit verbose nmax radii et pool).pool = pool := by
  obtain ⟨_, _, _, _, _, _, _, _, _, _, _, _, hp, _⟩ := trajectory_ok h
  rw [hp, List.take_of_length_le h3.1, List.take_of_length_le h3.2]

/-- A table with one occultation. -/
def demoTable (_ : Int) : Option (List Line) :=
  some [⟨"RSS_007E_X43 D43_dt".toList, some 2⟩, ⟨"RSS_007E_X43 D43_dr/dR1000".toList, some 3⟩]

example : (trajectoryCorrection demoRho demoTable "RSS_007E_X43".toList "43".toList 0 1 false 500 [1, 2] [0, 1000] ⟨[0, 0, 0], [1]⟩).out.isOk = true ∧
    (trajectoryCorrection demoRho demoTable "RSS_007E_X43".toList "43".toList 0 1 false 500 [1, 2] [0, 1000] ⟨[0, 0, 0], [1]⟩).pool = ⟨[0, 0, 0], [1]⟩ := by
  decide +kernel

/-- **C135 is false without the table of the fit** (the repository has none): whenever everything else succeeds, the call fails and leaves the
fitted pole in the kernel pool. -/
theorem C135_table_false (rho : Pool → ℚ → Option ℚ) (table : Int → Option (List Line)) (name dsn : List Char) (epoch : ℚ) (fit : Int)
    (nmax : Nat) (radii et : List ℚ) (pool pole : Pool) (ht : table fit = none) (hp : fittedPole epoch fit = some pole)
    (h1 : ∀ t, (rho pool t).isSome) (h2 : ∀ t, (rho pole t).isSome) (hr : pool.ra ≠ []) (hd : pool.dec ≠ []) :
    trajectoryCorrection rho table name dsn epoch fit false nmax radii et pool = ⟨pole, .error .noTable⟩ := by
  have all : ∀ (f : ℚ → Option ℚ), (∀ t, (f t).isSome) → ∀ l : List ℚ, ∃ r, l.mapM f = some r := by
    intro f hf l
    induction l with
    | nil => exact ⟨[], rfl⟩
    | cons a l ih =>
      obtain ⟨b, hb⟩ := Option.isSome_iff_exists.1 (hf a)
      obtain ⟨bs, hbs⟩ := ih
      exact ⟨b :: bs, by simp [List.mapM_cons, hb, hbs]⟩
  obtain ⟨again, ha⟩ := all _ h1 (thinned et nmax)
  obtain ⟨corr, hc⟩ := all _ h2 (thinned et nmax)
  simp [trajectoryCorrection, ha, hc, hp, ht, gdpool, hr, hd]

example : (trajectoryCorrection demoRho (fun _ => none) [] [] 0 1 false 500 [1, 2] [0, 1] demoPool).pool ≠ demoPool := by
  rw [C135_table_false demoRho _ _ _ _ _ _ _ _ _ _ rfl rfl (fun _ => rfl) (fun _ => rfl) (by decide) (by decide)]
  decide +kernel

/-- Two different times of a monotone list. -/
theorem mono_ne {x : List ℚ} (h : Spec.Monotone x) {i j : Nat} (hij : i < j) (hj : j < x.length) : x.getD j 0 - x.getD i 0 ≠ 0 := by
  rcases h with h | h
  · have := h.lt hij hj
    intro e
    linarith
  · have := falling_lt h hij hj
    intro e
    linarith

/-- The velocity between neighbours, for radii on a parabola. -/
theorem gradient_parabola (p q r a b c : ℚ) (hd : q - p ≠ 0) (he : r - q ≠ 0) (hde : q - p + (r - q) ≠ 0) :
    (q - p) / ((r - q) * (q - p + (r - q))) * (a + b * r + c * r ^ 2) + ((r - q) - (q - p)) / ((q - p) * (r - q)) * (a + b * q + c * q ^ 2) -
      (r - q) / ((q - p) * (q - p + (r - q))) * (a + b * p + c * p ^ 2) = b + 2 * c * q := by
  obtain ⟨d, rfl⟩ : ∃ d, p = q - d := ⟨q - p, by ring⟩
  obtain ⟨e, rfl⟩ : ∃ e, r = q + e := ⟨r - q, by ring⟩
  have hd' : d ≠ 0 := by simpa using hd
  have he' : e ≠ 0 := by simpa using he
  have hde' : d + e ≠ 0 := by simpa using hde
  rw [show q - (q - d) = d by ring, show q + e - q = e by ring]
  field_simp
  ring

theorem gradient_inside {f x : List ℚ} (h : Spec.Monotone x) (a b c : ℚ) {i : Nat} (h0 : 0 < i) (hi : i + 1 < x.length)
    (hf : ∀ j, i - 1 ≤ j → j ≤ i + 1 → f.getD j 0 = a + b * x.getD j 0 + c * x.getD j 0 ^ 2) :
    gradientAt f x i = b + 2 * c * x.getD i 0 := by
  unfold gradientAt
  simp only
  rw [if_neg (by omega), if_neg (by omega), hf i (by omega) (by omega), hf (i - 1) (by omega) (by omega), hf (i + 1) (by omega) (by omega)]
  apply gradient_parabola _ _ _ _ _ _ (mono_ne h (by omega) (by omega)) (mono_ne h (by omega) hi)
  have := mono_ne h (show i - 1 < i + 1 by omega) hi
  intro e
  exact this (by linarith)

/-- The velocity of radii that vary linearly. -/
theorem gradient_linear {f x : List ℚ} (h : Spec.Monotone x) (h2 : 2 ≤ x.length) (a b : ℚ)
    (hf : ∀ i, i < x.length → f.getD i 0 = a + b * x.getD i 0) {i : Nat} (hi : i < x.length) : gradientAt f x i = b := by
  by_cases h0 : i = 0
  · subst h0
    unfold gradientAt
    simp only [if_true]
    rw [hf 0 (by omega), hf 1 (by omega)]
    have := mono_ne h (show 0 < 1 by omega) (by omega)
    rw [div_eq_iff this]
    ring
  by_cases h1 : i = x.length - 1
  · unfold gradientAt
    simp only
    rw [if_neg h0, if_pos h1, hf _ (by omega), hf (x.length - 2) (by omega)]
    have := mono_ne h (show x.length - 2 < x.length - 1 by omega) (by omega)
    rw [div_eq_iff this]
    ring
  · rw [gradient_inside h a b 0 (by omega) (by omega) fun j _ _ => by rw [hf j (by omega)]; ring]
    ring

/-- **C135.** All three arrays have as many elements as the profile. -/
theorem C135_lengths (rho : Pool → ℚ → Option ℚ) (table : Int → Option (List Line)) (name dsn : List Char) (epoch : ℚ) (fit : Int)
    (verbose : Bool) (nmax : Nat) (radii et : List ℚ) (pool : Pool) {d c r : List ℚ}
    (h : (trajectoryCorrection rho table name dsn epoch fit verbose nmax radii et pool).out = .ok (d, c, r)) :
    d.length = et.length ∧ c.length = et.length ∧ r.length = et.length := by
  obtain ⟨again, pole, corr, _, _, _, h1, _, h3, _, _, _, _, ho⟩ := trajectory_ok h
  have l1 := (mapM_get h1).1
  have l3 := (mapM_get h3).1
  by_cases hn : nmax < et.length
  · rw [if_pos hn] at ho
    simp only [Prod.mk.injEq] at ho
    obtain ⟨rfl, rfl, rfl⟩ := ho
    simp
  · rw [if_neg hn] at ho
    simp only [Prod.mk.injEq] at ho
    obtain ⟨rfl, rfl, rfl⟩ := ho
    have ht : thinned et nmax = et := by unfold thinned; rw [if_neg hn]
    rw [ht] at l1 l3 ⊢
    exact ⟨by simp, l1, l3⟩

example : (match (trajectoryCorrection demoRho demoTable "RSS_007E_X43".toList "43".toList 0 1 false 2 [1, 2, 3] [0, 1, 2] demoPool).out with
    | .ok (d, c, r) => (d.length, c.length, r.length)
    | .error _ => (0, 0, 0)) = (3, 3, 3) := by decide +kernel

/-- **C135.** Inside a profile of no more than `NMAX` points the velocity is that of the parabola through the point and its neighbours. -/
theorem C135_inside (rho : Pool → ℚ → Option ℚ) (table : Int → Option (List Line)) (name dsn : List Char) (epoch : ℚ) (fit : Int)
    (verbose : Bool) (nmax : Nat) (radii et : List ℚ) (pool pole : Pool) (lines : List Line) (hm : Spec.Monotone et) (hn : et.length ≤ nmax)
    {d c r : List ℚ} (h : (trajectoryCorrection rho table name dsn epoch fit verbose nmax radii et pool).out = .ok (d, c, r))
    (hp : fittedPole epoch fit = some pole) (ht : table fit = some lines) (hl : ∀ l ∈ lines, l.fifth.isSome)
    {i : Nat} (h0 : 0 < i) (hi : i + 1 < et.length) (a0 a1 a2 : ℚ)
    (hf : ∀ j t, i - 1 ≤ j → j ≤ i + 1 → et[j]? = some t → rho pole t = some (a0 + a1 * t + a2 * t ^ 2)) :
    d.getD i 0 = Spec.shift (Spec.lastGiven name (keyTime dsn) lines) (Spec.lastGiven name (keyScale dsn) lines)
      (a0 + a1 * et.getD i 0 + a2 * et.getD i 0 ^ 2) (a1 + 2 * a2 * et.getD i 0) := by
  obtain ⟨again, pole', corr, lines', dt, alpha, h1, hp', h3, ht', hc, _, _, ho⟩ := trajectory_ok h
  rw [hp] at hp'
  rw [ht] at ht'
  cases hp'
  cases ht'
  rw [C135_coefficients _ _ _ hl] at hc
  simp only [Except.ok.injEq, Prod.mk.injEq] at hc
  obtain ⟨rfl, rfl⟩ := hc
  have hth : thinned et nmax = et := by unfold thinned; rw [if_neg (by omega)]
  rw [if_neg (by omega), hth] at ho
  rw [hth] at h3
  simp only [Prod.mk.injEq] at ho
  obtain ⟨l3, g3⟩ := mapM_get h3
  have hcorr : ∀ j, i - 1 ≤ j → j ≤ i + 1 → corr.getD j 0 = a0 + a1 * et.getD j 0 + a2 * et.getD j 0 ^ 2 := by
    intro j j1 j2
    have hj : j < et.length := by omega
    have e := g3 j _ (List.getElem?_eq_getElem hj)
    rw [hf j _ j1 j2 (List.getElem?_eq_getElem hj)] at e
    rw [List.getD_eq_getElem?_getD, ← e, getD_at hj]
    rfl
  have hd : d.getD i 0 = gradientAt corr et i * Spec.lastGiven name (keyTime dsn) lines -
      Spec.lastGiven name (keyScale dsn) lines * (corr.getD i 0 - 100000) / 1000 := by
    rw [ho.1, List.getD_eq_getElem?_getD, List.getElem?_map, List.getElem?_range (by omega)]
    rfl
  rw [hd, gradient_inside hm a0 a1 a2 h0 hi hcorr, hcorr i (by omega) (by omega)]
  unfold Spec.shift
  ring

example : (trajectoryCorrection (fun _ t => some (100000 + t + t ^ 2)) demoTable "RSS_007E_X43".toList "43".toList 0 1 false 500 [1, 2, 3]
    [0, 10, 30] demoPool).out.toOption.map (fun o => o.1.getD 1 0) = some (Spec.shift 2 3 100110 21) := by decide +kernel

/-- **C135.** For radii that vary linearly every correction is the shift, also when points were thinned out. -/
theorem C135_linear (rho : Pool → ℚ → Option ℚ) (table : Int → Option (List Line)) (name dsn : List Char) (epoch : ℚ) (fit : Int)
    (verbose : Bool) (nmax : Nat) (radii et : List ℚ) (pool pole : Pool) (lines : List Line) (hm : Spec.Monotone et) (h2 : 2 ≤ nmax)
    {d c r : List ℚ} (h : (trajectoryCorrection rho table name dsn epoch fit verbose nmax radii et pool).out = .ok (d, c, r))
    (hp : fittedPole epoch fit = some pole) (ht : table fit = some lines) (hl : ∀ l ∈ lines, l.fifth.isSome) (a b : ℚ)
    (hf : ∀ t, rho pole t = some (a + b * t)) :
    ∀ (i : Nat) (t : ℚ), et[i]? = some t →
      d[i]? = some (Spec.shift (Spec.lastGiven name (keyTime dsn) lines) (Spec.lastGiven name (keyScale dsn) lines) (a + b * t) b) ∧
      r[i]? = some (a + b * t) := by
  obtain ⟨again, pole', corr, lines', dt, alpha, h1, hp', h3, ht', hc, hu, _, ho⟩ := trajectory_ok h
  rw [hp] at hp'
  rw [ht] at ht'
  cases hp'
  cases ht'
  rw [C135_coefficients _ _ _ hl] at hc
  simp only [Except.ok.injEq, Prod.mk.injEq] at hc
  obtain ⟨rfl, rfl⟩ := hc
  generalize Spec.lastGiven name (keyTime dsn) lines = dt at *
  generalize Spec.lastGiven name (keyScale dsn) lines = alpha at *
  obtain ⟨l3, g3⟩ := mapM_get h3
  have um : Spec.Monotone (thinned et nmax) := by
    by_cases hn : nmax < et.length
    · exact (thinned_mono hm h2 hn).1
    · unfold thinned; rwa [if_neg hn]
  have hcorr : ∀ j, j < (thinned et nmax).length → corr.getD j 0 = a + b * (thinned et nmax).getD j 0 := by
    intro j hj
    have e := g3 j _ (List.getElem?_eq_getElem hj)
    rw [hf] at e
    rw [List.getD_eq_getElem?_getD, ← e, getD_at hj]
    rfl
  set D := (List.range (thinned et nmax).length).map fun i =>
    gradientAt corr (thinned et nmax) i * dt - alpha * (corr.getD i 0 - 100000) / 1000 with hD
  have hDl : D.length = (thinned et nmax).length := by simp [hD]
  have hDg : ∀ j, j < (thinned et nmax).length → D.getD j 0 = Spec.shift dt alpha (a + b * (thinned et nmax).getD j 0) b := by
    intro j hj
    rw [hD, List.getD_eq_getElem?_getD, List.getElem?_map, List.getElem?_range hj]
    show gradientAt corr (thinned et nmax) j * dt - alpha * (corr.getD j 0 - 100000) / 1000 = _
    rw [gradient_linear um hu a b hcorr hj, hcorr j hj]
    unfold Spec.shift
    ring
  intro i t hi
  by_cases hn : nmax < et.length
  · obtain ⟨_, ul, u0, u1⟩ := thinned_mono hm h2 hn
    rw [if_pos hn] at ho
    simp only [Prod.mk.injEq] at ho
    obtain ⟨rfl, rfl, rfl⟩ := ho
    have bt := mono_between hm (List.mem_of_getElem? hi)
    have bt' : min ((thinned et nmax).getD 0 0) ((thinned et nmax).getD ((thinned et nmax).length - 1) 0) ≤ t ∧
        t ≤ max ((thinned et nmax).getD 0 0) ((thinned et nmax).getD ((thinned et nmax).length - 1) 0) := by
      rw [ul, u0, u1]; exact bt
    constructor
    · rw [List.getElem?_map, hi, Option.map_some]
      congr 1
      obtain ⟨k, w, k1, k2, _, _, e1, e2⟩ := interp_mono um hDl.symm hu t bt'
      rw [e2, hDg k (by omega), hDg (k + 1) k1, e1]
      unfold Spec.shift
      ring
    · rw [List.getElem?_map, hi, Option.map_some]
      congr 1
      obtain ⟨k, w, k1, k2, _, _, e1, e2⟩ := interp_mono um l3.symm hu t bt'
      rw [e2, hcorr k (by omega), hcorr (k + 1) k1, e1]
      ring
  · have hth : thinned et nmax = et := by unfold thinned; rw [if_neg hn]
    rw [if_neg hn] at ho
    simp only [Prod.mk.injEq] at ho
    have hlt := (List.getElem?_eq_some_iff.1 hi).1
    have hti : et.getD i 0 = t := by rw [List.getD_eq_getElem?_getD, hi]; rfl
    have q1 := hDg i (by rw [hth]; exact hlt)
    have q2 := hcorr i (by rw [hth]; exact hlt)
    rw [hth, hti] at q1 q2
    rw [hth] at hDl l3
    rw [ho.1, ho.2.2]
    constructor
    · rw [← q1, getD_at (by omega)]; exact List.getElem?_eq_getElem (by omega)
    · rw [← q2, getD_at (by omega)]; exact List.getElem?_eq_getElem (by omega)

example : (trajectoryCorrection (fun _ t => some (100000 + 10 * t)) demoTable "RSS_007E_X43".toList "43".toList 0 1 false 2 [1, 2, 3]
    [30, 20, 0] demoPool).out.toOption.map (·.1) = some [Spec.shift 2 3 100300 10, Spec.shift 2 3 100200 10, Spec.shift 2 3 100000 10] := by
  decide +kernel

/-- **C135.** An occultation that the table does not list gets no correction, and no error: all corrections are zero. -/
theorem C135_unlisted (rho : Pool → ℚ → Option ℚ) (table : Int → Option (List Line)) (name dsn : List Char) (epoch : ℚ) (fit : Int)
    (verbose : Bool) (nmax : Nat) (radii et : List ℚ) (pool : Pool) (lines : List Line) (hn : et.length ≤ nmax)
    {d c r : List ℚ} (h : (trajectoryCorrection rho table name dsn epoch fit verbose nmax radii et pool).out = .ok (d, c, r))
    (ht : table fit = some lines) (hl : ∀ l ∈ lines, ¬ name <:+: l.text) : d = List.replicate et.length 0 := by
  obtain ⟨again, pole', corr, lines', dt, alpha, h1, hp', h3, ht', hc, hu, _, ho⟩ := trajectory_ok h
  rw [ht] at ht'
  cases ht'
  have none : ∀ ls : List Line, (∀ l ∈ ls, ¬ name <:+: l.text) → coefficients name dsn ls = .ok (0, 0) := by
    intro ls
    unfold coefficients
    induction ls with
    | nil => intro _; rfl
    | cons l ls ih =>
      intro hls
      rw [List.foldlM_cons, if_neg (hls l (by simp))]
      exact ih fun x hx => hls x (by simp [hx])
  rw [none lines hl] at hc
  simp only [Except.ok.injEq, Prod.mk.injEq] at hc
  obtain ⟨rfl, rfl⟩ := hc
  have hth : thinned et nmax = et := by unfold thinned; rw [if_neg (by omega)]
  rw [if_neg (by omega), hth] at ho
  simp only [Prod.mk.injEq] at ho
  rw [ho.1]
  apply List.ext_getElem
  · simp
  · intro i _ _
    simp

example : (trajectoryCorrection demoRho demoTable "RSS_008I_X43".toList "43".toList 0 1 false 500 [1, 2] [0, 1] demoPool).out.toOption.map (·.1) =
    some [0, 0] := by decide +kernel

end Verif.RadCorr
