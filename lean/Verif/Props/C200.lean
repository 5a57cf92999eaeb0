import Verif.Model.FromInst

/-!
# The profile in memory as input of the reconstruction (C200)
-/
namespace Verif.FromInst
open Real

/-- The same angles in the other unit: half a turn is 180 degrees and `π` radians. -/
def Spec.SameAngles (deg rad : Col) : Prop :=
  List.Forall₂ (fun d r => (d = none ∧ r = none) ∨ ∃ x y, d = some x ∧ r = some y ∧ x / 180 = y / π) deg rad

/-- What the attribute `a` of the input holds, given the profile: the names say which quantity it is and its unit. -/
def Spec.Holds (inst : Obj) (a : String) (c : Col) : Prop :=
  inst a = some c ∨ ∃ stem r, a = stem ++ "_deg_vals" ∧ inst (stem ++ "_rad_vals") = some r ∧ Spec.SameAngles c r

theorem sameAngles_degrees (c : Col) : Spec.SameAngles (c.map (·.map fun x => x * 180 / π)) c := by
  unfold Spec.SameAngles
  induction c with
  | nil => exact .nil
  | cons x c ih =>
    refine .cons ?_ ih
    cases x with
    | none => exact Or.inl ⟨rfl, rfl⟩
    | some x => exact Or.inr ⟨_, x, rfl, rfl, by field_simp⟩

theorem zero_eq {c z : Col} (hl : c.length = z.length) (hc : ∀ x ∈ c, ∃ y, x = some y) (hz : ∀ x ∈ z, x = some 0) :
    c.map (·.map fun x => x * 0) = z := by
  induction c generalizing z with
  | nil => cases z with
    | nil => rfl
    | cons => cases hl
  | cons x c ih =>
    cases z with
    | nil => cases hl
    | cons w z =>
      obtain ⟨y, rfl⟩ := hc x (by simp)
      rw [List.map_cons, hz w (by simp), ih (by simpa using hl) (fun x hx => hc x (by simp [hx])) fun x hx => hz x (by simp [hx])]
      simp

/-- The last call for an attribute. -/
def lastSrc : List (String × Src) → String → Option Src
  | [], _ => none
  | s :: r, a => match lastSrc r a with
    | some x => some x
    | none => if a = s.1 then some s.2 else none

theorem setAll_ok {inst : Obj} {l : List (String × Src)} (h : ∀ s ∈ l, ∃ v, value inst s.2 = some v) (d : Obj) : ∃ d', setAll inst l d = some d' ∧
    ∀ a s, lastSrc l a = some s → value inst s = some (d' a) := by
  suffices ∃ d', setAll inst l d = some d' ∧ (∀ a s, lastSrc l a = some s → value inst s = some (d' a)) ∧ ∀ a, lastSrc l a = none → d' a = d a by
    obtain ⟨d', h1, h2, -⟩ := this; exact ⟨d', h1, h2⟩
  induction l generalizing d with
  | nil => exact ⟨d, rfl, fun a s hs => by simp [lastSrc] at hs, fun a _ => rfl⟩
  | cons x l ih =>
    obtain ⟨v, hv⟩ := h x (by simp)
    obtain ⟨d', h1, h2, h3⟩ := ih (fun s hs => h s (by simp [hs])) (fun a => if a = x.1 then v else d a)
    refine ⟨d', by simp only [setAll, set, hv, h1], fun a s hs => ?_, fun a hs => ?_⟩
    · rw [lastSrc] at hs
      cases hl : lastSrc l a with
      | some y => rw [hl] at hs; cases hs; exact h2 a _ hl
      | none =>
        rw [hl] at hs
        have := h3 a hl
        by_cases e : a = x.1
        · simp only [if_pos e] at hs this
          cases hs; rw [this, hv]
        · simp [if_neg e] at hs
    · rw [lastSrc] at hs
      cases hl : lastSrc l a with
      | some y => rw [hl] at hs; cases hs
      | none =>
        rw [hl] at hs
        have := h3 a hl
        by_cases e : a = x.1
        · simp [if_pos e] at hs
        · simpa only [if_neg e] using this

/-- What the calls read. -/
def Src.reads : Src → List String
  | .copy a => [a]
  | .degrees a => [a]
  | .zero a => [a]
  | .nothing => []

theorem value_ok {inst : Obj} {s : Src} (h : ∀ a ∈ s.reads, ∃ c, inst a = some c) : ∃ v, value inst s = some v := by
  cases s with
  | copy a => obtain ⟨c, hc⟩ := h a (by simp [Src.reads]); exact ⟨_, by simp only [value, hc]; rfl⟩
  | degrees a => obtain ⟨c, hc⟩ := h a (by simp [Src.reads]); exact ⟨_, by simp only [value, hc]; rfl⟩
  | zero a => obtain ⟨c, hc⟩ := h a (by simp [Src.reads]); exact ⟨_, by simp only [value, hc]; rfl⟩
  | nothing => exact ⟨_, rfl⟩

theorem reads_made : ∀ s ∈ setters, ∀ a ∈ s.2.reads, a ∈ made := by decide +kernel

/-- How an attribute that the reconstruction takes is set. -/
def good (a : String) : Src → Bool
  | .copy b => a = b
  | .degrees b => ["B", "phase", "phi", "phi_rl"].any fun s => a = s ++ "_deg_vals" ∧ b = s ++ "_rad_vals"
  | .zero b => (a = "rho_corr_pole_km_vals" ∨ a = "rho_corr_timing_km_vals") ∧ b = "raw_tau_threshold_vals"
  | .nothing => false

theorem taken_good : ∀ a ∈ taken, ∃ s, lastSrc setters a = some s ∧ good a s := by
  have : ∀ a ∈ taken, (match lastSrc setters a with | some s => good a s | none => false) = true := by decide +kernel
  intro a ha
  have := this a ha
  cases h : lastSrc setters a with
  | none => rw [h] at this; cases this
  | some s => rw [h] at this; exact ⟨s, rfl, this⟩

/-- A profile of the class, with its corrections of 0 and a threshold that is a number everywhere: everything that the reconstruction takes is
there, as long as the profile, and holds what its name says. -/
theorem C200_taken {inst : Obj} {n : ℕ} (h : ∀ a ∈ made, ∃ c, inst a = some c ∧ c.length = n)
    (h0 : ∀ a ∈ ["rho_corr_pole_km_vals", "rho_corr_timing_km_vals"], inst a = some (List.replicate n (some 0)))
    (ht : ∀ c, inst "raw_tau_threshold_vals" = some c → ∀ x ∈ c, ∃ y, x = some y) :
    ∃ d, dataFromInst inst = some d ∧ ∀ a ∈ taken, ∃ c, d a = some c ∧ c.length = n ∧ Spec.Holds inst a c := by
  obtain ⟨d, hd, hs⟩ := setAll_ok (inst := inst) (l := setters)
    (fun s hs => value_ok fun a ha => (h a (reads_made s hs a ha)).imp fun c hc => hc.1) (fun _ => none)
  refine ⟨d, hd, fun a ha => ?_⟩
  obtain ⟨s, h1, h2⟩ := taken_good a ha
  have hv := hs a s h1
  have hm : ∀ b ∈ s.reads, b ∈ made := by
    have mem : ∀ (l : List (String × Src)), lastSrc l a = some s → ∃ x ∈ l, x.2 = s := by
      intro l
      induction l with
      | nil => intro h; cases h
      | cons x l ih =>
        intro h
        rw [lastSrc] at h
        cases hl : lastSrc l a with
        | some y => rw [hl] at h; cases h; obtain ⟨z, hz, e⟩ := ih hl; exact ⟨z, by simp [hz], e⟩
        | none =>
          rw [hl] at h
          by_cases e : a = x.1
          · simp only [if_pos e] at h; cases h; exact ⟨x, by simp, rfl⟩
          · simp [if_neg e] at h
    obtain ⟨x, hx, rfl⟩ := mem _ h1
    exact reads_made x hx
  cases s with
  | copy b =>
    obtain ⟨c, hc, hn⟩ := h b (hm b (by simp [Src.reads]))
    simp only [good, decide_eq_true_eq] at h2
    subst h2
    simp only [value, hc, Option.map_some, Option.some.injEq] at hv
    exact ⟨c, hv.symm, hn, Or.inl hc⟩
  | degrees b =>
    obtain ⟨c, hc, hn⟩ := h b (hm b (by simp [Src.reads]))
    simp only [good, List.any_eq_true, decide_eq_true_eq] at h2
    obtain ⟨stem, -, e1, e2⟩ := h2
    simp only [value, hc, Option.map_some, Option.some.injEq] at hv
    exact ⟨_, hv.symm, by rw [List.length_map, hn], Or.inr ⟨stem, c, e1, by rw [← e2, hc], sameAngles_degrees c⟩⟩
  | zero b =>
    obtain ⟨c, hc, hn⟩ := h b (hm b (by simp [Src.reads]))
    simp only [good, decide_eq_true_eq] at h2
    obtain ⟨e1, e2⟩ := h2
    simp only [value, hc, Option.map_some, Option.some.injEq] at hv
    have hz : inst a = some (List.replicate n (some 0)) := h0 a (by rcases e1 with e | e <;> simp [e])
    refine ⟨_, hv.symm, by rw [List.length_map, hn], Or.inl ?_⟩
    rw [hz, zero_eq (z := List.replicate n (some 0)) (by simp [hn]) (ht c (by rw [← e2, hc])) fun x hx => (List.mem_replicate.mp hx).2]
  | nothing => simp [good] at h2

/-- A profile of two points. -/
example : ∃ d, dataFromInst (fun a => if a ∈ made then (if a = "rho_corr_pole_km_vals" ∨ a = "rho_corr_timing_km_vals" then some [some 0, some 0]
    else some [some 1, some 2]) else none) = some d ∧ ∃ c, d "B_deg_vals" = some c ∧ c.length = 2 := by
  have e : ∀ a ∈ ["rho_corr_pole_km_vals", "rho_corr_timing_km_vals"], a ∈ made ∧ (a = "rho_corr_pole_km_vals" ∨ a = "rho_corr_timing_km_vals") := by
    decide +kernel
  have e2 : ("raw_tau_threshold_vals" : String) ∈ made ∧
    ¬ ("raw_tau_threshold_vals" = "rho_corr_pole_km_vals" ∨ "raw_tau_threshold_vals" = "rho_corr_timing_km_vals") := by decide +kernel
  have e3 : ("B_deg_vals" : String) ∈ taken := by decide +kernel
  obtain ⟨d, hd, h⟩ := C200_taken (n := 2) (inst := fun a => if a ∈ made then
    (if a = "rho_corr_pole_km_vals" ∨ a = "rho_corr_timing_km_vals" then some [some 0, some 0] else some [some 1, some 2]) else none)
    (fun a ha => by
      simp only [if_pos ha]
      split
      · exact ⟨_, rfl, rfl⟩
      · exact ⟨_, rfl, rfl⟩)
    (fun a ha => by simp only [if_pos (e a ha).1, if_pos (e a ha).2]; rfl)
    (fun c hc => by
      simp only [if_pos e2.1, if_neg e2.2] at hc
      cases hc
      intro x hx
      simp only [List.mem_cons, List.not_mem_nil, or_false] at hx
      rcases hx with rfl | rfl
      · exact ⟨_, rfl⟩
      · exact ⟨_, rfl⟩)
  obtain ⟨c, h1, h2, -⟩ := h _ e3
  exact ⟨d, hd, c, h1, h2⟩

end Verif.FromInst
