import Verif.Model.TitanLon
import Mathlib.Tactic.Linarith
import Mathlib.Tactic.Ring
import Mathlib.Tactic.FieldSimp
import Mathlib.Tactic.NormNum

/-!
# The longitude of Titan (C235, C236)
-/
namespace Verif.Titan
open Real

/-- More kernels never hurt. -/
def Spec.Monotone (f : List Ker → Bool) : Prop := ∀ a b : List Ker, (∀ k ∈ a, k ∈ b) → f a = true → f b = true

theorem retry_some (sp : Spice) (hm : Spec.Monotone sp.state) (more ks : List Ker) :
    (retry sp more ks).isSome ↔ sp.state (ks ++ more) = true := by
  induction more generalizing ks with
  | nil => by_cases h : sp.state ks = true <;> simp [retry, h]
  | cons k more ih =>
    by_cases h : sp.state ks = true
    · simp only [retry, h, if_true, Option.isSome_some, true_iff]
      exact hm ks _ (fun x hx => List.mem_append_left _ hx) h
    · simp only [retry, h]
      rw [if_neg (by simp), ih, List.append_assoc, List.singleton_append]

theorem retry_sound (sp : Spice) (more ks r : List Ker) (h : retry sp more ks = some r) : sp.state r = true ∧ ∃ l, l <+: more ∧ r = ks ++ l := by
  induction more generalizing ks with
  | nil =>
    by_cases hs : sp.state ks = true
    · simp only [retry, hs, if_true, Option.some.injEq] at h
      subst h
      exact ⟨hs, [], List.nil_prefix, by simp⟩
    · simp [retry, hs] at h
  | cons k more ih =>
    by_cases hs : sp.state ks = true
    · simp only [retry, hs, if_true, Option.some.injEq] at h
      subst h
      exact ⟨hs, [], List.nil_prefix, by simp⟩
    · simp only [retry, hs] at h
      rw [if_neg (by simp)] at h
      obtain ⟨h1, l, hl, rfl⟩ := ih _ h
      exact ⟨h1, k :: l, by rw [List.cons_prefix_cons]; exact ⟨rfl, hl⟩, by simp⟩

/-- The function has the state of Titan whenever SPICE could have it, and the constants of Saturn, with the loaded kernels and its own four. -/
def Spec.Enough (sp : Spice) (usePresent : Bool) (loaded : List Ker) : Prop :=
  sp.consts (loaded ++ [.tf, .bsp, .tls, .tpc]) = true → sp.state (loaded ++ [.tf, .bsp, .tls, .tpc]) = true → (titanKers sp usePresent loaded).isSome

/-- When kernels with the constants of Saturn are loaded, Titan is found exactly when it can be with the four kernels added; those that were loaded stay, no kernel
is loaded without need, and the file of constants is the last resort. -/
theorem C235_kernels_partial (sp : Spice) (hm : Spec.Monotone sp.state) (loaded : List Ker) (hl : loaded ≠ []) (hc : sp.consts loaded = true) :
    Spec.Enough sp true loaded ∧ (sp.state loaded = true → titanKers sp true loaded = some loaded) ∧
    ∀ r, titanKers sp true loaded = some r → sp.state r = true ∧ (∀ k ∈ loaded, k ∈ r) ∧
      (.tpc ∈ r → .tpc ∈ loaded ∨ sp.state (loaded ++ [.tf, .bsp, .tls]) = false) := by
  have hs : startKers true loaded = loaded := by
    simp [startKers, hl]
  have e : titanKers sp true loaded = retry sp [.tf, .bsp, .tls, .tpc] loaded := by simp only [titanKers, hs, hc, if_true]
  refine ⟨?_, ?_, ?_⟩
  · intro _ h
    rw [e, retry_some sp hm]
    exact h
  · intro h
    rw [e, retry, if_pos h]
  · intro r hr
    rw [e] at hr
    obtain ⟨h1, l, -, rfl⟩ := retry_sound sp _ _ _ hr
    refine ⟨h1, fun k hk => List.mem_append_left _ hk, fun ht => ?_⟩
    by_cases hin : Ker.tpc ∈ loaded
    · exact Or.inl hin
    · right
      by_contra hb
      have hb : sp.state (loaded ++ [.tf, .bsp, .tls]) = true := by simpa using hb
      have : ∃ r', retry sp [.tf, .bsp, .tls] loaded = some r' := Option.isSome_iff_exists.mp ((retry_some sp hm _ _).mpr hb)
      obtain ⟨r', hr'⟩ := this
      have step : ∀ (m ks : List Ker) (k : Ker) (r' : List Ker), retry sp m ks = some r' → retry sp (m ++ [k]) ks = some r' := by
        intro m
        induction m with
        | nil =>
          intro ks k r' h
          by_cases hs : sp.state ks = true
          · simpa [retry, hs] using h
          · simp [retry, hs] at h
        | cons a m ih =>
          intro ks k r' h
          by_cases hs : sp.state ks = true
          · simpa [retry, hs] using h
          · simp only [retry, hs, List.cons_append] at h ⊢
            rw [if_neg (by simp)] at h ⊢
            exact ih _ _ _ h
      have := step _ _ .tpc _ hr'
      simp only [List.cons_append, List.nil_append] at this
      rw [this] at hr
      obtain ⟨-, l', hl', hr''⟩ := retry_sound sp _ _ _ hr'
      rw [Option.some.injEq] at hr
      rw [← hr, hr''] at ht
      rcases List.mem_append.mp ht with ht | ht
      · exact hin ht
      · have := hl'.subset ht
        simp at this

/-- When no kernels are loaded, or they are not to be used, the four are loaded. -/
theorem C235_fresh_partial (sp : Spice) (usePresent : Bool) (loaded : List Ker) (h : usePresent = false ∨ loaded = [])
    (hc : sp.consts [.tpc, .tf, .tls, .bsp] = true) (hs : sp.state [.tpc, .tf, .tls, .bsp] = true) :
    titanKers sp usePresent loaded = some [.tpc, .tf, .tls, .bsp] := by
  have e : startKers usePresent loaded = [.tpc, .tf, .tls, .bsp] := by
    rcases h with rfl | rfl
    · rfl
    · cases usePresent <;> rfl
  simp only [titanKers, e, hc, if_true, retry, hs]

/-- SPICE as it is: the constants need their file, the state needs the frame and the orbits. -/
def demoSpice : Spice := ⟨fun ks => decide (.tpc ∈ ks), fun ks => decide (.tf ∈ ks) && decide (.bsp ∈ ks)⟩

example : titanKers demoSpice true [.tpc, .other 1] = some [.tpc, .other 1, .tf, .bsp] := by decide

example : Spec.Monotone demoSpice.state := by
  intro a b h
  simp only [demoSpice, Bool.and_eq_true, decide_eq_true_eq]
  exact fun ⟨h1, h2⟩ => ⟨h _ h1, h _ h2⟩

/-- The last resort is never reached: without the file of constants the lines before raise an exception. -/
theorem C235_kernels_false : ∃ (sp : Spice) (loaded : List Ker), Spec.Monotone sp.state ∧ Spec.Monotone sp.consts ∧ ¬ Spec.Enough sp true loaded := by
  refine ⟨demoSpice, [.tls, .tf, .bsp], ?_, ?_, fun h => ?_⟩
  · intro a b h
    simp only [demoSpice, Bool.and_eq_true, decide_eq_true_eq]
    exact fun ⟨h1, h2⟩ => ⟨h _ h1, h _ h2⟩
  · intro a b h
    simp only [demoSpice, decide_eq_true_eq]
    exact fun h1 => h _ h1
  · have := h (by decide) (by decide)
    revert this
    decide

theorem rmod_range (x : ℝ) : 0 ≤ rmod x 360 ∧ rmod x 360 < 360 := by
  have h1 := Int.floor_le (x / 360)
  have h2 := Int.lt_floor_add_one (x / 360)
  have e : x / 360 * 360 = x := by ring
  unfold rmod
  constructor <;> linarith

/-- Both longitudes are from 0 up to 360 degrees; the mean one differs from that of the elements by whole turns. -/
theorem C236_range (meanLon : Bool) (elemLon x y : ℝ) : 0 ≤ titanLon meanLon elemLon x y ∧ titanLon meanLon elemLon x y < 360 ∧
    (meanLon = true → ∃ n : ℤ, titanLon meanLon elemLon x y = elemLon + 360 * n) := by
  refine ⟨?_, ?_, ?_⟩
  · cases meanLon
    · exact (rmod_range _).1
    · exact (rmod_range _).1
  · cases meanLon
    · exact (rmod_range _).2
    · exact (rmod_range _).2
  · rintro rfl
    refine ⟨-⌊elemLon / 360⌋, ?_⟩
    simp only [titanLon, rmod, if_true]
    push_cast
    ring

example : titanLon true 725 0 0 = 5 := by
  have : ⌊(725 : ℝ) / 360⌋ = 2 := by rw [Int.floor_eq_iff]; norm_num
  simp only [titanLon, rmod, if_true, this]
  norm_num

/-- The true longitude is that of the position. -/
theorem C236_position (elemLon x y : ℝ) :
    x = √(x ^ 2 + y ^ 2) * cos (titanLon false elemLon x y * (π / 180)) ∧ y = √(x ^ 2 + y ^ 2) * sin (titanLon false elemLon x y * (π / 180)) := by
  have e : titanLon false elemLon x y * (π / 180) = Complex.arg ⟨x, y⟩ - (⌊(Complex.arg ⟨x, y⟩ * (180 / π) + 360) / 360⌋ - 1 : ℤ) * (2 * π) := by
    simp only [titanLon, lonDeg, rmod, Bool.false_eq_true, if_false]
    push_cast
    field_simp
    ring
  have hn : ‖(⟨x, y⟩ : ℂ)‖ = √(x ^ 2 + y ^ 2) := by rw [Complex.norm_def, Complex.normSq_mk]; ring_nf
  rw [e, Real.cos_sub_int_mul_two_pi, Real.sin_sub_int_mul_two_pi, ← hn]
  exact ⟨(Complex.norm_mul_cos_arg ⟨x, y⟩).symm, (Complex.norm_mul_sin_arg ⟨x, y⟩).symm⟩

example : √((3 : ℝ) ^ 2 + (-4) ^ 2) = 5 := by
  rw [show (3 : ℝ) ^ 2 + (-4) ^ 2 = 5 ^ 2 by norm_num]
  exact Real.sqrt_sq (by norm_num)

end Verif.Titan
