import Verif.Model.RadCorr
import Verif.Props.C88

/-!
# C134: correction of the radii for the pole
-/
namespace Verif.RadCorr
open Verif.Geo Verif.Geo.Spec Verif.Cal
namespace Spec

/-- Times of a profile: all later or all earlier than the one before. -/
def Monotone (t : List ℚ) : Prop := Growing t ∨ Falling t

/-- The right ascension and declination of a pole `T` centuries after J2000. -/
def direction (p : Pool) (T : ℚ) : ℚ × ℚ :=
  (p.ra.getD 0 0 + p.ra.getD 1 0 * T + p.ra.getD 2 0 * T ^ 2, p.dec.getD 0 0 + p.dec.getD 1 0 * T + p.dec.getD 2 0 * T ^ 2)

end Spec

theorem mapM_get {α β : Type} {f : α → Option β} {l : List α} {r : List β} (h : l.mapM f = some r) :
    r.length = l.length ∧ ∀ (i : Nat) (a : α), l[i]? = some a → f a = r[i]? := by
  induction l generalizing r with
  | nil => simp at h; subst h; simp
  | cons a l ih =>
    rw [List.mapM_cons] at h
    cases ha : f a with
    | none => simp [ha] at h
    | some b =>
      cases hl : l.mapM f with
      | none => simp [ha, hl] at h
      | some bs =>
        simp [ha, hl] at h
        subst h
        obtain ⟨h1, h2⟩ := ih hl
        refine ⟨by simp [h1], ?_⟩
        intro i c hc
        cases i with
        | zero => simp at hc; subst hc; simpa using ha
        | succ i => simpa using h2 i c (by simpa using hc)

theorem linspace_at (a b : ℚ) {m i : Nat} (h2 : 2 ≤ m) (hi : i < m) : (linspace a b m).getD i 0 = a + (i : ℚ) * ((b - a) / ((m : ℚ) - 1)) := by
  unfold linspace
  rw [if_neg (by omega), List.getD_eq_getElem?_getD, List.getElem?_map, List.getElem?_range hi]
  rfl

theorem linspace_len (a b : ℚ) {m : Nat} (h2 : 2 ≤ m) : (linspace a b m).length = m := by
  unfold linspace
  rw [if_neg (by omega)]
  simp

theorem linspace_first (a b : ℚ) {m : Nat} (h2 : 2 ≤ m) : (linspace a b m).getD 0 0 = a := by
  rw [linspace_at a b h2 (by omega)]
  simp

theorem linspace_last (a b : ℚ) {m : Nat} (h2 : 2 ≤ m) : (linspace a b m).getD (m - 1) 0 = b := by
  rw [linspace_at a b h2 (by omega)]
  have h : (2 : ℚ) ≤ m := by exact_mod_cast h2
  have h' : (m : ℚ) - 1 ≠ 0 := by linarith
  rw [Nat.cast_sub (by omega)]
  field_simp
  push_cast
  ring

theorem linspace_up {a b : ℚ} (h : a < b) {m : Nat} (h2 : 2 ≤ m) : Growing (linspace a b m) := by
  have hm : (2 : ℚ) ≤ m := by exact_mod_cast h2
  have step : 0 < (b - a) / ((m : ℚ) - 1) := div_pos (by linarith) (by linarith)
  unfold Growing
  rw [List.pairwise_iff_getElem]
  intro i j hi hj hij
  rw [linspace_len a b h2] at hi hj
  rw [← getD_at, ← getD_at, linspace_at a b h2 hi, linspace_at a b h2 hj]
  have : (i : ℚ) < j := by exact_mod_cast hij
  have := mul_lt_mul_of_pos_right this step
  linarith

theorem linspace_down {a b : ℚ} (h : b < a) {m : Nat} (h2 : 2 ≤ m) : Falling (linspace a b m) := by
  have hm : (2 : ℚ) ≤ m := by exact_mod_cast h2
  have step : 0 < (a - b) / ((m : ℚ) - 1) := div_pos (by linarith) (by linarith)
  unfold Falling
  rw [List.pairwise_iff_getElem]
  intro i j hi hj hij
  rw [linspace_len a b h2] at hi hj
  rw [← getD_at, ← getD_at, linspace_at a b h2 hi, linspace_at a b h2 hj]
  have : (i : ℚ) < j := by exact_mod_cast hij
  have := mul_lt_mul_of_pos_right this step
  have e : (b - a) / ((m : ℚ) - 1) = -((a - b) / ((m : ℚ) - 1)) := by ring
  rw [e]
  linarith

theorem falling_lt {l : List ℚ} (h : Falling l) {i j : Nat} (hij : i < j) (hj : j < l.length) : l.getD j 0 < l.getD i 0 := by
  rw [getD_at hj, getD_at (hij.trans hj)]
  exact List.pairwise_iff_getElem.mp h i j (hij.trans hj) hj hij

/-- Interpolation in a monotone list stays on the polygon, between the first and the last point. -/
theorem interp_mono {x y : List ℚ} (h : Spec.Monotone x) (hl : x.length = y.length) (h2 : 2 ≤ x.length) (v : ℚ)
    (hv : min (x.getD 0 0) (x.getD (x.length - 1) 0) ≤ v ∧ v ≤ max (x.getD 0 0) (x.getD (x.length - 1) 0)) :
    OnPolygon x y v (interp1d x y v) := by
  have m0 : x.getD 0 0 ∈ x := by rw [getD_at (by omega)]; exact List.getElem_mem _
  have m1 : x.getD (x.length - 1) 0 ∈ x := by rw [getD_at (by omega)]; exact List.getElem_mem _
  have lo : ∃ r ∈ x, r ≤ v := by
    rcases min_le_iff.1 hv.1 with h' | h'
    · exact ⟨_, m0, h'⟩
    · exact ⟨_, m1, h'⟩
  have hi : ∃ r ∈ x, v ≤ r := by
    rcases le_max_iff.1 hv.2 with h' | h'
    · exact ⟨_, m0, h'⟩
    · exact ⟨_, m1, h'⟩
  rcases h with h | h
  · exact interp_growing h hl h2 v lo hi
  · exact interp_falling h hl h2 v lo hi

/-- All times lie between the first and the last. -/
theorem mono_between {x : List ℚ} (h : Spec.Monotone x) {v : ℚ} (hv : v ∈ x) :
    min (x.getD 0 0) (x.getD (x.length - 1) 0) ≤ v ∧ v ≤ max (x.getD 0 0) (x.getD (x.length - 1) 0) := by
  obtain ⟨i, hi, rfl⟩ := List.getElem_of_mem hv
  rw [← getD_at hi]
  rcases h with h | h
  · have a := h.le (Nat.zero_le i) hi
    have b := h.le (show i ≤ x.length - 1 by omega) (by omega)
    exact ⟨min_le_of_left_le a, le_max_of_le_right b⟩
  · have a : x.getD i 0 ≤ x.getD 0 0 := by
      rcases Nat.eq_zero_or_pos i with rfl | h0
      · exact le_refl _
      · exact (falling_lt h h0 hi).le
    have b : x.getD (x.length - 1) 0 ≤ x.getD i 0 := by
      rcases Nat.lt_or_ge i (x.length - 1) with h0 | h0
      · exact (falling_lt h h0 (by omega)).le
      · rw [show i = x.length - 1 by omega]
    exact ⟨min_le_of_right_le b, le_max_of_le_left a⟩

/-- The thinned times are monotone, have the same ends, and contain no time outside. -/
theorem thinned_mono {et : List ℚ} {nmax : Nat} (h : Spec.Monotone et) (h2 : 2 ≤ nmax) (hn : nmax < et.length) :
    Spec.Monotone (thinned et nmax) ∧ (thinned et nmax).length = nmax ∧ (thinned et nmax).getD 0 0 = et.getD 0 0 ∧
      (thinned et nmax).getD (nmax - 1) 0 = et.getD (et.length - 1) 0 := by
  unfold thinned
  rw [if_pos hn]
  refine ⟨?_, linspace_len _ _ h2, linspace_first _ _ h2, linspace_last _ _ h2⟩
  rcases h with h | h
  · exact Or.inl (linspace_up (h.lt (by omega) (by omega)) h2)
  · exact Or.inr (linspace_down (falling_lt h (by omega) (by omega)) h2)

theorem fitted_cases {epoch : ℚ} {fit : Int} : (fittedPole epoch fit).isSome ↔ fit = 1 ∨ fit = 7 := by
  unfold fittedPole
  by_cases h1 : fit = 1
  · simp [h1]
  · by_cases h7 : fit = 7 <;> simp [h1, h7]

/-- What a successful run computed. -/
theorem pole_ok {rho : Pool → ℚ → Option ℚ} {epoch : ℚ} {fit : Int} {verbose : Bool} {nmax : Nat} {radii et : List ℚ} {pool : Pool}
    {o : List ℚ × List ℚ × List ℚ} (h : (poleCorrection rho epoch fit verbose nmax radii et pool).out = .ok o) :
    ∃ again pole corr, (thinned et nmax).mapM (rho pool) = some again ∧ fittedPole epoch fit = some pole ∧
      (thinned et nmax).mapM (rho pole) = some corr ∧ pool.ra ≠ [] ∧ pool.dec ≠ [] ∧
      (poleCorrection rho epoch fit verbose nmax radii et pool).pool = ⟨pool.ra.take 3, pool.dec.take 3⟩ ∧
      o = if nmax < et.length then
          (et.map (interp1d (thinned et nmax) (List.zipWith (· - ·) corr ((thinned et nmax).map (interp1d et radii)))),
            (thinned et nmax).map (interp1d et radii), et.map (interp1d (thinned et nmax) corr))
        else (List.zipWith (· - ·) corr again, again, corr) := by
  unfold poleCorrection at h ⊢
  simp only at h ⊢
  cases h1 : (thinned et nmax).mapM (rho pool) with
  | none => simp [h1] at h
  | some again =>
    simp only [h1] at h ⊢
    obtain ⟨rc, hrc⟩ : ∃ rc, (if nmax < et.length then (thinned et nmax).map (interp1d et radii) else again) = rc := ⟨_, rfl⟩
    simp only [hrc] at h ⊢
    by_cases hplot : verbose = true ∧ rc.length ≠ radii.length
    · rw [if_pos hplot] at h
      cases h
    rw [if_neg hplot] at h ⊢
    unfold gdpool at h ⊢
    by_cases hr : pool.ra = []
    · simp [hr] at h
    by_cases hd : pool.dec = []
    · simp [hd, hr] at h
    simp only [hr, hd, if_false] at h ⊢
    cases h2 : fittedPole epoch fit with
    | none => simp [h2] at h
    | some pole =>
      simp only [h2] at h ⊢
      cases h3 : (thinned et nmax).mapM (rho pole) with
      | none => simp [h3] at h
      | some corr =>
        simp only [h3] at h ⊢
        refine ⟨again, pole, corr, rfl, rfl, h3, hr, hd, trivial, ?_⟩
        injection h with h
        rw [← h, ← hrc]
        by_cases hn : nmax < et.length <;> simp [hn]

/-- **C134.** After a correction the kernel pool has its own pole again, if that has no more than three coefficients. -/
theorem C134_restored_partial (rho : Pool → ℚ → Option ℚ) (epoch : ℚ) (fit : Int) (verbose : Bool) (nmax : Nat) (radii et : List ℚ)
    (pool : Pool) (h3 : pool.ra.length ≤ 3 ∧ pool.dec.length ≤ 3) {o : List ℚ × List ℚ × List ℚ}
    (h : (poleCorrection rho epoch fit verbose nmax radii et pool).out = .ok o) :
    (poleCorrection rho epoch fit verbose nmax radii et pool).pool = pool := by
  obtain ⟨_, _, _, _, _, _, _, _, hp, _⟩ := pole_ok h
  rw [hp, List.take_of_length_le h3.1, List.take_of_length_le h3.2]

/-- A radius that grows with the time and with the first coefficient. -/
def demoRho (p : Pool) (t : ℚ) : Option ℚ := some (100000 + t + p.ra.getD 0 0)

/-- The same, but SPICE fails under the fitted pole, as it does when a kernel is missing. -/
def weakRho (p : Pool) (t : ℚ) : Option ℚ := if p.ra.getD 0 0 = 40 then demoRho p t else none

/-- A pole. -/
def demoPool : Pool := ⟨[40, 0, 0], [83, 0, 0]⟩

example : (poleCorrection demoRho 0 1 false 500 [1, 2] [0, 1] demoPool).pool = demoPool ∧
    (poleCorrection demoRho 0 1 false 500 [1, 2] [0, 1] demoPool).out = .ok ([0.579414, 0.579414], [100040, 100041], [100040.579414, 100041.579414]) := by
  decide +kernel

/-- **C134 is false when something fails**: then the fitted pole stays in the kernel pool. -/
theorem C134_restored_false : ¬ ∀ (rho : Pool → ℚ → Option ℚ) (epoch : ℚ) (fit : Int) (verbose : Bool) (nmax : Nat) (radii et : List ℚ)
    (pool : Pool), (poleCorrection rho epoch fit verbose nmax radii et pool).pool = pool := by
  intro h
  have := h weakRho 0 1 false 500 [1, 2] [0, 1] demoPool
  revert this
  decide +kernel

/-- **C134 is false of longer variables**: they lose their further coefficients. -/
theorem C134_longer_false : ∃ pool : Pool, (poleCorrection demoRho 0 1 false 500 [1, 2] [0, 1] pool).out.isOk = true ∧
    (poleCorrection demoRho 0 1 false 500 [1, 2] [0, 1] pool).pool ≠ pool :=
  ⟨⟨[40, 0, 0, 1], [83, 0, 0]⟩, by decide +kernel, by decide +kernel⟩

/-- **C134.** An unknown fit is refused before the kernel pool is changed. -/
theorem C134_fit (rho : Pool → ℚ → Option ℚ) (epoch : ℚ) (fit : Int) (verbose : Bool) (nmax : Nat) (radii et : List ℚ) (pool : Pool)
    (h1 : fit ≠ 1) (h7 : fit ≠ 7) : (poleCorrection rho epoch fit verbose nmax radii et pool).pool = pool ∧
      ∀ o, (poleCorrection rho epoch fit verbose nmax radii et pool).out ≠ .ok o := by
  have hf : fittedPole epoch fit = none := by simp [fittedPole, h1, h7]
  constructor
  · unfold poleCorrection
    simp only [hf]
    repeat' split
    all_goals rfl
  · intro o ho
    obtain ⟨_, _, _, _, h, _⟩ := pole_ok ho
    rw [hf] at h
    cases h

example : (poleCorrection demoRho 0 2 false 500 [1, 2] [0, 1] demoPool).pool = demoPool :=
  (C134_fit _ _ _ _ _ _ _ _ (by decide) (by decide)).1

/-- **C134.** At the epoch of the fit (2008 Jan 1 12:00) the pole put into the kernel pool points where the fit says, and it moves with the
fitted rates. -/
theorem C134_epoch (epoch T : ℚ) :
    (∃ p, fittedPole epoch 1 = some p ∧
      Spec.direction p T = (40.579414 - 0.03497 * (T - epoch / (36525 * 86400)), 83.537218 - 0.00324 * (T - epoch / (36525 * 86400)))) ∧
    ∃ p, fittedPole epoch 7 = some p ∧
      Spec.direction p T = (40.579425 - 0.03062 * (T - epoch / (36525 * 86400)), 83.537202 - 0.00461 * (T - epoch / (36525 * 86400))) := by
  refine ⟨⟨_, rfl, ?_⟩, ⟨_, rfl, ?_⟩⟩ <;>
    simp only [Spec.direction, List.getD_cons_zero, List.getD_cons_succ, Prod.mk.injEq] <;> constructor <;> ring

example : Spec.direction ⟨[40, -1, 0], [83, 2, 0]⟩ 3 = (37, 89) := by decide +kernel

/-- **C134.** For no more than `NMAX` points each correction is the difference of the radii under the two poles at its own time. -/
theorem C134_few (rho : Pool → ℚ → Option ℚ) (epoch : ℚ) (fit : Int) (verbose : Bool) (nmax : Nat) (radii et : List ℚ) (pool : Pool)
    (hn : et.length ≤ nmax) {d c r : List ℚ} (h : (poleCorrection rho epoch fit verbose nmax radii et pool).out = .ok (d, c, r)) :
    ∃ pole, fittedPole epoch fit = some pole ∧ d.length = et.length ∧ c.length = et.length ∧ r.length = et.length ∧
      ∀ (i : Nat) (t : ℚ), et[i]? = some t → ∃ a b, rho pool t = some a ∧ rho pole t = some b ∧ c[i]? = some a ∧ r[i]? = some b ∧
        d[i]? = some (b - a) := by
  obtain ⟨again, pole, corr, h1, h2, h3, _, _, _, ho⟩ := pole_ok h
  have ht : thinned et nmax = et := by unfold thinned; rw [if_neg (by omega)]
  rw [ht] at h1 h3
  rw [if_neg (by omega)] at ho
  obtain ⟨rfl, rfl, rfl⟩ : d = List.zipWith (· - ·) corr again ∧ c = again ∧ r = corr := by simpa using ho
  obtain ⟨l1, g1⟩ := mapM_get h1
  obtain ⟨l3, g3⟩ := mapM_get h3
  refine ⟨pole, h2, by simp [l1, l3], l1, l3, ?_⟩
  intro i t hi
  have hlt := (List.getElem?_eq_some_iff.1 hi).1
  have e1 := g1 i t hi
  have e3 := g3 i t hi
  rw [List.getElem?_eq_getElem (by omega)] at e1 e3
  refine ⟨_, _, e1, e3, List.getElem?_eq_getElem (by omega), List.getElem?_eq_getElem (by omega), ?_⟩
  rw [List.getElem?_zipWith, List.getElem?_eq_getElem (by omega : i < r.length), List.getElem?_eq_getElem (by omega : i < c.length)]

example : (poleCorrection demoRho 0 7 true 500 [1, 2, 3] [5, 4, 2] demoPool).out =
    .ok ([0.579425, 0.579425, 0.579425], [100045, 100044, 100042], [100045.579425, 100044.579425, 100042.579425]) := by decide +kernel

/-- **C134.** For more points each correction lies on the polygon through the differences, at the thinned times, between the radius under
the fitted pole and the radius of the file, which lies on the polygon through the radii of the file. -/
theorem C134_many_partial (rho : Pool → ℚ → Option ℚ) (epoch : ℚ) (fit : Int) (verbose : Bool) (nmax : Nat) (radii et : List ℚ) (pool : Pool)
    (hl : radii.length = et.length) (hm : Spec.Monotone et) (h2 : 2 ≤ nmax) (hn : nmax < et.length) {d c r : List ℚ}
    (h : (poleCorrection rho epoch fit verbose nmax radii et pool).out = .ok (d, c, r)) :
    ∃ pole us diff, fittedPole epoch fit = some pole ∧ d.length = et.length ∧ c.length = nmax ∧ r.length = et.length ∧
      us.length = nmax ∧ us.getD 0 0 = et.getD 0 0 ∧ us.getD (nmax - 1) 0 = et.getD (et.length - 1) 0 ∧ Spec.Monotone us ∧
      diff.length = nmax ∧
      (∀ (j : Nat) (u : ℚ), us[j]? = some u → ∃ a b, rho pole u = some b ∧ c[j]? = some a ∧ OnPolygon et radii u a ∧ diff[j]? = some (b - a)) ∧
      ∀ (i : Nat) (t : ℚ), et[i]? = some t → ∃ v, d[i]? = some v ∧ OnPolygon us diff t v := by
  obtain ⟨again, pole, corr, h1, hp, h3, _, _, _, ho⟩ := pole_ok h
  obtain ⟨um, ul, u0, u1⟩ := thinned_mono hm h2 hn
  rw [if_pos hn] at ho
  set us := thinned et nmax with hus
  obtain ⟨rfl, rfl, rfl⟩ : d = et.map (interp1d us (List.zipWith (· - ·) corr (us.map (interp1d et radii)))) ∧
      c = us.map (interp1d et radii) ∧ r = et.map (interp1d us corr) := by simpa using ho
  obtain ⟨l3, g3⟩ := mapM_get h3
  have dl : (List.zipWith (· - ·) corr (us.map (interp1d et radii))).length = nmax := by simp [l3, ul]
  refine ⟨pole, us, _, hp, by simp, by simp [ul], by simp, ul, u0, u1, um, dl, ?_, ?_⟩
  · intro j u hj
    have hlt := (List.getElem?_eq_some_iff.1 hj).1
    have e3 := g3 j u hj
    have hjc : j < corr.length := by omega
    rw [List.getElem?_eq_getElem hjc] at e3
    refine ⟨interp1d et radii u, corr[j], e3, by rw [List.getElem?_map, hj]; rfl, ?_, ?_⟩
    · apply interp_mono hm hl.symm (by omega)
      have := mono_between um (List.mem_of_getElem? hj)
      rwa [ul, u0, u1] at this
    · rw [List.getElem?_zipWith, List.getElem?_eq_getElem hjc, List.getElem?_map, hj]
      rfl
  · intro i t hi
    refine ⟨_, by rw [List.getElem?_map, hi]; rfl, ?_⟩
    apply interp_mono um (by rw [dl, ul]) (by omega)
    rw [ul, u0, u1]
    exact mono_between hm (List.mem_of_getElem? hi)

example : (poleCorrection demoRho 0 1 false 2 [100040, 100041, 100042] [0, 1, 2] demoPool).out =
    .ok ([0.579414, 0.579414, 0.579414], [100040, 100042], [100040.579414, 100041.579414, 100042.579414]) := by decide +kernel

/-- **C134.** For radii that vary linearly, and a file which has the radii under the pole of the kernel pool, the corrections of more points
are exact too. -/
theorem C134_linear (rho : Pool → ℚ → Option ℚ) (epoch : ℚ) (fit : Int) (verbose : Bool) (nmax : Nat) (radii et : List ℚ) (pool pole : Pool)
    (hl : radii.length = et.length) (hm : Spec.Monotone et) (h2 : 2 ≤ nmax) (hn : nmax < et.length) {d c r : List ℚ}
    (h : (poleCorrection rho epoch fit verbose nmax radii et pool).out = .ok (d, c, r)) (hp : fittedPole epoch fit = some pole)
    (a b a' b' : ℚ) (hr : ∀ (i : Nat) (t : ℚ), et[i]? = some t → radii[i]? = some (a + b * t))
    (hf : ∀ t, rho pole t = some (a' + b' * t)) :
    ∀ (i : Nat) (t : ℚ), et[i]? = some t → d[i]? = some (a' + b' * t - (a + b * t)) := by
  obtain ⟨pole', us, diff, hp', dl, cl, rl, ul, u0, u1, um, fl, hdiff, hd⟩ := C134_many_partial rho epoch fit verbose nmax radii et pool hl hm h2 hn h
  have : pole' = pole := by rw [hp] at hp'; exact (Option.some.inj hp').symm
  subst this
  have file : ∀ u v, OnPolygon et radii u v → v = a + b * u := by
    rintro u v ⟨i, w, i1, i2, _, _, rfl, rfl⟩
    have e0 := hr i (et.getD i 0) (by rw [getD_at (by omega)]; exact List.getElem?_eq_getElem (by omega))
    have e1 := hr (i + 1) (et.getD (i + 1) 0) (by rw [getD_at (by omega)]; exact List.getElem?_eq_getElem (by omega))
    have f0 : radii.getD i 0 = a + b * et.getD i 0 := by rw [List.getD_eq_getElem?_getD, e0]; rfl
    have f1 : radii.getD (i + 1) 0 = a + b * et.getD (i + 1) 0 := by rw [List.getD_eq_getElem?_getD, e1]; rfl
    rw [f0, f1]
    ring
  have diffs : ∀ j, j < us.length → diff.getD j 0 = a' + b' * us.getD j 0 - (a + b * us.getD j 0) := by
    intro j hj
    obtain ⟨x, y, e1, _, e3, e4⟩ := hdiff j (us.getD j 0) (by rw [getD_at hj]; exact List.getElem?_eq_getElem hj)
    rw [hf] at e1
    rw [List.getD_eq_getElem?_getD, e4, file _ _ e3, ← Option.some.inj e1]
    rfl
  intro i t hi
  obtain ⟨v, hv, k, w, k1, k2, _, _, et', rfl⟩ := hd i t hi
  rw [hv, diffs k (by omega), diffs (k + 1) k1, et']
  congr 1
  ring

/-- **C134 is false of long files**: their corrections also contain the difference between the radii of the file and those of the kernels,
so that they are not zero although the two poles give the same radii. -/
theorem C134_file_false : ∃ rho : Pool → ℚ → Option ℚ, (∀ p q t, rho p t = rho q t) ∧
    (poleCorrection rho 0 1 false 3 [100001, 100002, 100003] [0, 1, 2] demoPool).out = .ok ([0, 0, 0], [100000, 100001, 100002], [100000, 100001, 100002]) ∧
    (poleCorrection rho 0 1 false 2 [100001, 100002, 100003] [0, 1, 2] demoPool).out = .ok ([-1, -1, -1], [100001, 100003], [100000, 100001, 100002]) :=
  ⟨fun _ t => some (100000 + t), fun _ _ _ => rfl, by decide +kernel, by decide +kernel⟩

/-- **C134 is false of long files with `verbose`**: the figure needs arrays of the same length, so nothing is corrected. -/
theorem C134_verbose_false (rho : Pool → ℚ → Option ℚ) (epoch : ℚ) (fit : Int) (nmax : Nat) (radii et : List ℚ) (pool : Pool)
    (hl : radii.length = et.length) (h2 : 2 ≤ nmax) (hn : nmax < et.length) :
    ∀ o, (poleCorrection rho epoch fit true nmax radii et pool).out ≠ .ok o := by
  intro o ho
  unfold poleCorrection at ho
  simp only [hn, if_true] at ho
  split at ho
  · cases ho
  rw [if_pos] at ho
  · cases ho
  · refine ⟨trivial, ?_⟩
    have : (thinned et nmax).length = nmax := by unfold thinned; rw [if_pos hn]; exact linspace_len _ _ h2
    rw [List.length_map, this, hl]
    omega

example : (poleCorrection demoRho 0 1 true 2 [1, 2, 3] [0, 1, 2] demoPool).out = .error .plot := by decide +kernel

/-- **C134.** `demo_e2e_event` stores the corrections, and the writer prints for each row its own. -/
theorem C134_stored (r : List ℚ × List ℚ × List ℚ) (n : Nat) : cell (keepFirst r) n = r.1[n]? := rfl

/-- **C134 is false of `demo_e2e_event_loop`**: it stores the tuple of three arrays, and for profiles with more than one point the writer fails at
the first row. -/
theorem C134_tuple_false (rho : Pool → ℚ → Option ℚ) (epoch : ℚ) (fit : Int) (verbose : Bool) (nmax : Nat) (radii et : List ℚ) (pool : Pool)
    (he : 2 ≤ et.length) {o : List ℚ × List ℚ × List ℚ} (h : (poleCorrection rho epoch fit verbose nmax radii et pool).out = .ok o) :
    cell (keepAll o) 0 = none := by
  have len : o.1.length = et.length := by
    rcases Nat.lt_or_ge nmax et.length with hn | hn
    · obtain ⟨_, _, _, _, _, _, _, _, _, ho⟩ := pole_ok h
      rw [ho, if_pos hn]
      simp
    · obtain ⟨_, _, h', _⟩ := C134_few (d := o.1) (c := o.2.1) (r := o.2.2) rho epoch fit verbose nmax radii et pool hn h
      exact h'
  have hd : ∀ v, o.1 ≠ [v] := by
    intro v hv
    rw [hv] at len
    simp at len
    omega
  obtain ⟨d, c, r⟩ := o
  simp only [cell, keepAll, List.getElem?_cons_zero]
  match d, hd with
  | [], _ => rfl
  | [v], hd => exact absurd rfl (hd v)
  | _ :: _ :: _, _ => rfl

example : cell (keepFirst ([1, 2], [3, 4], [5, 6])) 1 = some 2 ∧ cell (keepAll ([1, 2], [3, 4], [5, 6])) 0 = none := by decide +kernel

end Verif.RadCorr
