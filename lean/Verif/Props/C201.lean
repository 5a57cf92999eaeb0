import Verif.Model.SummaryDoc

/-!
# The summary shows the whole profile (C201, C202, C203)
-/
namespace Verif.Summary

/-- The panels, page after page, are intervals of the same width, each beginning where the one before ends, the first one at `a`. -/
def Spec.Tiled (a w : ℚ) (l : List (List Panel)) : Prop :=
  ∀ (k : ℕ) p, l.flatten[k]? = some p → p.lo = a + k * w ∧ p.hi = a + (k + 1) * w

/-- A radius in km is within the limits of a panel. -/
def Spec.Shown (x : ℚ) (l : List (List Panel)) : Prop := ∃ page ∈ l, ∃ p ∈ page, p.lo ≤ x / 1000 ∧ x / 1000 ≤ p.hi

theorem rows_snd (w : ℚ) (n : Nat) (lo : ℚ) : (rows w n lo).2 = lo + n * w := by
  induction n generalizing lo with
  | zero => simp [rows]
  | succ n ih => simp only [rows, ih]; push_cast; ring

theorem rows_length (w : ℚ) (n : Nat) (lo : ℚ) : (rows w n lo).1.length = n := by
  induction n generalizing lo with
  | zero => rfl
  | succ n ih => simp [rows, ih]

theorem rows_get (w : ℚ) (n : Nat) (lo : ℚ) (k : Nat) (hk : k < n) : (rows w n lo).1[k]? = some ⟨lo + k * w, lo + (k + 1) * w⟩ := by
  induction n generalizing lo k with
  | zero => omega
  | succ n ih =>
    cases k with
    | zero => simp [rows]
    | succ k =>
      simp only [rows, List.getElem?_cons_succ]
      rw [ih (lo + w) k (by omega)]
      push_cast
      congr 2 <;> ring

theorem pages_length (m : Nat) (w : ℚ) (n : Nat) (lo : ℚ) : (pages m w n lo).length = n := by
  induction n generalizing lo with
  | zero => rfl
  | succ n ih => simp [pages, ih]

theorem pages_rows (m : Nat) (w : ℚ) (n : Nat) (lo : ℚ) : ∀ page ∈ pages m w n lo, page.length = m := by
  induction n generalizing lo with
  | zero => simp [pages]
  | succ n ih =>
    intro page hp
    rcases List.mem_cons.mp hp with rfl | hp
    · exact rows_length _ _ _
    · exact ih _ page hp

theorem pages_flat_length (m : Nat) (w : ℚ) (n : Nat) (lo : ℚ) : (pages m w n lo).flatten.length = n * m := by
  induction n generalizing lo with
  | zero => simp [pages]
  | succ n ih => simp only [pages, List.flatten_cons, List.length_append, rows_length, ih]; ring

theorem pages_get (m : Nat) (w : ℚ) (n : Nat) (lo : ℚ) (k : Nat) (hk : k < n * m) :
    (pages m w n lo).flatten[k]? = some ⟨lo + k * w, lo + (k + 1) * w⟩ := by
  induction n generalizing lo k with
  | zero => omega
  | succ n ih =>
    simp only [pages, List.flatten_cons]
    by_cases h : k < m
    · rw [List.getElem?_append_left (by rw [rows_length]; exact h), rows_get _ _ _ _ h]
    · have hm : k - m < n * m := by rw [Nat.succ_mul] at hk; omega
      have hc : ((k - m : ℕ) : ℚ) = k - m := by push_cast [Nat.cast_sub (not_lt.mp h)]; ring
      rw [List.getElem?_append_right (by rw [rows_length]; omega), rows_length, rows_snd, ih _ _ hm, hc]
      congr 2 <;> ring

theorem pages_tiled (m : Nat) (w : ℚ) (n : Nat) (lo : ℚ) : Spec.Tiled lo w (pages m w n lo) := by
  intro k p h
  have hk : k < n * m := by
    rw [← pages_flat_length m w n lo]
    exact (List.getElem?_eq_some_iff.mp h).1
  rw [pages_get m w n lo k hk] at h
  cases h
  exact ⟨rfl, rfl⟩

theorem pages_shown {m : Nat} {w lo x : ℚ} {n : Nat} (hn : 0 < n * m) (h1 : lo ≤ x / 1000) (h2 : x / 1000 ≤ lo + n * m * w) :
    Spec.Shown x (pages m w n lo) := by
  -- the panel is the one whose number is the floor of the distance, or the last one
  obtain ⟨k, hk, a1, a2⟩ : ∃ k < n * m, lo + k * w ≤ x / 1000 ∧ x / 1000 ≤ lo + (k + 1 : ℕ) * w := by
    have : ∀ N : ℕ, 0 < N → x / 1000 ≤ lo + N * w → ∃ k < N, lo + k * w ≤ x / 1000 ∧ x / 1000 ≤ lo + (k + 1 : ℕ) * w := by
      intro N
      induction N with
      | zero => intro h; omega
      | succ N ih =>
        intro _ hN
        by_cases hc : lo + N * w ≤ x / 1000
        · exact ⟨N, by omega, hc, hN⟩
        · rcases Nat.eq_zero_or_pos N with rfl | hp
          · simp at hc; linarith
          · obtain ⟨k, hk, b⟩ := ih hp (not_le.mp hc).le
            exact ⟨k, by omega, b⟩
    exact this (n * m) hn (by push_cast; exact h2)
  have hg := List.mem_of_getElem? (pages_get m w n lo k hk)
  obtain ⟨page, hp, hq⟩ := List.mem_flatten.mp hg
  exact ⟨page, hp, _, hq, a1, by push_cast at a2; exact a2⟩

theorem npages_pos (lo hi q : ℚ) : 0 < npages lo hi q := by
  unfold npages; omega

theorem npages_enough {lo hi q : ℚ} (hq : 0 < q) : hi ≤ lo + npages lo hi q * q := by
  have h : ⌈(hi - lo) / q⌉ ≤ (npages lo hi q : ℤ) := by unfold npages; omega
  have : (hi - lo) / q ≤ (npages lo hi q : ℚ) := (Int.le_ceil _).trans (by exact_mod_cast h)
  rw [div_le_iff₀ hq] at this
  linarith

theorem npages_least {lo hi q : ℚ} (hq : 0 < q) : npages lo hi q = 1 ∨ lo + (npages lo hi q - 1 : ℕ) * q < hi := by
  by_cases h : ⌈(hi - lo) / q⌉ ≤ 1
  · left; unfold npages; omega
  · right
    have e : ((npages lo hi q - 1 : ℕ) : ℤ) < ⌈(hi - lo) / q⌉ := by unfold npages; omega
    have := Int.lt_ceil.mp e
    rw [lt_div_iff₀ hq] at this
    push_cast at this
    linarith

/-- What a set of pages should be: full pages with four panels that tile the radii from `a`, in which each radius from `a` to `b` is shown, and no page
more than needed for that. -/
def Spec.Good (a b w : ℚ) (l : List (List Panel)) : Prop :=
  (∀ page ∈ l, page.length = 4) ∧ Spec.Tiled (a / 1000) w l ∧ (∀ x, a ≤ x → x ≤ b → Spec.Shown x l) ∧
    (l.length = 1 ∨ ((l.length - 1 : ℕ) : ℚ) * (4 * w) < (b - a) / 1000)

theorem good (a b w : ℚ) (hw : 0 < w) : Spec.Good a b w (pages 4 w (npages (a / 1000) (b / 1000) (4 * w)) (a / 1000)) := by
  have hq : 0 < 4 * w := by linarith
  have hp := npages_pos (a / 1000) (b / 1000) (4 * w)
  have he := npages_enough (lo := a / 1000) (hi := b / 1000) hq
  refine ⟨pages_rows _ _ _ _, pages_tiled _ _ _ _, fun x h1 h2 => pages_shown (by omega) ?_ ?_, ?_⟩
  · exact div_le_div_of_nonneg_right h1 (by norm_num)
  · have : x / 1000 ≤ b / 1000 := div_le_div_of_nonneg_right h2 (by norm_num)
    push_cast
    linarith
  · rw [pages_length]
    rcases npages_least (lo := a / 1000) (hi := b / 1000) hq with h | h
    · exact Or.inl h
    · right
      rw [sub_div]
      linarith

/-- For a profile that is not empty the pages of the summary show all of it: the pages with 1000 km per panel if its radii ascend, those with
200 km per panel in any case. -/
theorem C201_pages {rho : List ℚ} (h : rho ≠ []) :
    (rho.Pairwise (· ≤ ·) → ∃ a b t, a ∈ rho ∧ b ∈ rho ∧ (∀ x ∈ rho, a ≤ x ∧ x ≤ b) ∧ tauPages rho = some t ∧ Spec.Good a b 1 t ∧
      ∀ x ∈ rho, Spec.Shown x t) ∧
    ∃ a b z, a ∈ rho ∧ b ∈ rho ∧ (∀ x ∈ rho, a ≤ x ∧ x ≤ b) ∧ zoomPages rho = some z ∧ Spec.Good a b (1 / 5) z ∧ ∀ x ∈ rho, Spec.Shown x z := by
  constructor
  · intro hs
    have hb : ∀ x ∈ rho, rho.head h ≤ x ∧ x ≤ rho.getLast h := by
      intro x hx
      constructor
      · cases rho with
        | nil => exact absurd rfl h
        | cons y r =>
          rcases List.mem_cons.mp hx with rfl | hx
          · exact le_refl _
          · exact (List.pairwise_cons.mp hs).1 x hx
      · rw [← List.dropLast_append_getLast h] at hx hs
        rcases List.mem_append.mp hx with hx | hx
        · exact (List.pairwise_append.mp hs).2.2 x hx _ (by simp)
        · rw [List.mem_singleton.mp hx]
    have hg := good (rho.head h) (rho.getLast h) 1 (by norm_num)
    refine ⟨_, _, _, List.head_mem h, List.getLast_mem h, hb, ?_, hg, fun x hx => hg.2.2.1 x (hb x hx).1 (hb x hx).2⟩
    simp only [tauPages, List.head?_eq_some_head h, List.getLast?_eq_some_getLast h]
  · obtain ⟨a, ha⟩ : ∃ a, rho.min? = some a := Option.isSome_iff_exists.mp (by cases rho with | nil => exact absurd rfl h | cons => simp [List.min?_cons])
    obtain ⟨b, hb⟩ : ∃ b, rho.max? = some b := Option.isSome_iff_exists.mp (by cases rho with | nil => exact absurd rfl h | cons => simp [List.max?_cons])
    have h1 := List.min?_eq_some_iff.mp ha
    have h2 := List.max?_eq_some_iff.mp hb
    have hb' : ∀ x ∈ rho, a ≤ x ∧ x ≤ b := fun x hx => ⟨h1.2 x hx, h2.2 x hx⟩
    have hg := good a b (1 / 5) (by norm_num)
    refine ⟨a, b, _, h1.1, h2.1, hb', ?_, hg, fun x hx => hg.2.2.1 x (hb' x hx).1 (hb' x hx).2⟩
    simp only [zoomPages, ha, hb]

/-- A profile of three points over two pages. -/
example : tauPages [74000, 76000, 79000] = some [[⟨74, 75⟩, ⟨75, 76⟩, ⟨76, 77⟩, ⟨77, 78⟩], [⟨78, 79⟩, ⟨79, 80⟩, ⟨80, 81⟩, ⟨81, 82⟩]] ∧
    [(74000 : ℚ), 76000, 79000] ≠ [] ∧ [(74000 : ℚ), 76000, 79000].Pairwise (· ≤ ·) := by
  refine ⟨?_, by simp, by norm_num [List.pairwise_cons]⟩
  have : npages 74 79 4 = 2 := by
    have : ⌈((79 : ℚ) - 74) / 4⌉ = 2 := by rw [Int.ceil_eq_iff]; norm_num
    simp [npages, this]
  norm_num [tauPages, this, pages, rows]

/-- The pages numbered from 1. -/
def Spec.numbered (l : List Kind) : List (Nat × Kind) := (List.range' 1 l.length).zip l

theorem range'_zip_replicate (s n : Nat) (k : Kind) : (List.range' s n).zip (List.replicate n k) = (List.range' s n).map fun p => (p, k) := by
  induction n generalizing s with
  | zero => rfl
  | succ n ih => rw [List.range'_succ, List.replicate_succ, List.zip_cons_cons, ih, List.map_cons]

theorem numbered_pdf (nt nz : Nat) : Spec.numbered (pdf nt nz) = (figures nt nz).eraseIdx 6 := by
  have e : (pdf nt nz).length = 6 + (nt + (nz + 1)) := by simp [pdf]; omega
  unfold Spec.numbered
  rw [e, ← List.range'_append_1, ← List.range'_append_1, ← List.range'_append_1, pdf, List.append_assoc, List.append_assoc,
    List.zip_append (by simp), List.zip_append (by simp), List.zip_append (by simp), range'_zip_replicate, range'_zip_replicate]
  simp [figures, List.range'_succ]

/-- All figures but the seventh are the pages one after the other, each with the caption for what it shows. -/
theorem C202_figures_partial {rho : List ℚ} {p : List Kind} {f : List (Nat × Kind)} (h : summary rho = some (p, f)) :
    f.eraseIdx 6 = Spec.numbered p := by
  unfold summary at h
  split at h
  · cases h; exact (numbered_pdf _ _).symm
  · cases h

/-- A profile that has a summary. -/
example : ∃ p f, summary [74000, 76000, 79000] = some (p, f) := by
  obtain ⟨h1, -, -, z, -, -, -, hz, -⟩ := C201_pages (rho := [74000, 76000, 79000]) (by simp)
  obtain ⟨-, -, t, -, -, -, ht, -⟩ := h1 (by norm_num [List.pairwise_cons])
  exact ⟨_, _, by simp only [summary, ht, hz]; rfl⟩

/-- For every profile the seventh figure takes page 7 as well, which the eighth figure has too; its caption is that of the overview on page 6, but
the page shows optical depths. -/
theorem C202_figures_false {rho : List ℚ} {p : List Kind} {f : List (Nat × Kind)} (h : summary rho = some (p, f)) :
    f[6]? = some (7, .overview) ∧ f[7]? = some (7, .tau) ∧ p[6]? = some .tau ∧ f ≠ Spec.numbered p := by
  unfold summary at h
  split at h
  · next t z ht hz =>
    have hn : ∃ n, t.length = n + 1 := by
      unfold tauPages at ht
      split at ht
      · cases ht
        rw [pages_length]
        exact ⟨_, (Nat.succ_pred_eq_of_pos (npages_pos _ _ _)).symm⟩
      · cases ht
    obtain ⟨n, hn⟩ := hn
    simp only [Option.some.injEq, Prod.mk.injEq] at h
    obtain ⟨rfl, rfl⟩ := h
    refine ⟨by simp [figures], by simp [figures, hn, List.range'_succ], by simp [pdf, hn, List.replicate_succ], fun e => ?_⟩
    have := congrArg List.length e
    rw [numbered_pdf, List.length_eraseIdx] at this
    have h6 : 6 < (figures t.length z.length).length := by simp [figures]
    rw [if_pos h6] at this
    omega
  · cases h

/-- The page of the phases shows the radii from 72000 to 144000 km. -/
theorem C203_phase_partial {x : ℚ} (h1 : 72000 ≤ x) (h2 : x ≤ 144000) : Spec.Shown x [phasePanels] := by
  have a1 : 72 ≤ x / 1000 := by rw [le_div_iff₀ (by norm_num)]; linarith
  have a2 : x / 1000 ≤ 144 := by rw [div_le_iff₀ (by norm_num)]; linarith
  refine ⟨_, List.mem_singleton.mpr rfl, ?_⟩
  rcases le_total (x / 1000) 90 with h | h
  · exact ⟨⟨72, 90⟩, by simp [phasePanels], a1, h⟩
  rcases le_total (x / 1000) 108 with h' | h'
  · exact ⟨⟨90, 108⟩, by simp [phasePanels], h, h'⟩
  rcases le_total (x / 1000) 126 with h'' | h''
  · exact ⟨⟨108, 126⟩, by simp [phasePanels], h', h''⟩
  · exact ⟨⟨126, 144⟩, by simp [phasePanels], h'', a2⟩

example : Spec.Shown 87500 [phasePanels] := C203_phase_partial (by norm_num) (by norm_num)

/-- It shows no others, though profiles reach from 65000 to 150000 km. -/
theorem C203_phase_false {x : ℚ} (h : x < 72000 ∨ 144000 < x) : ¬ Spec.Shown x [phasePanels] := by
  rintro ⟨page, hp, p, hq, h1, h2⟩
  rw [List.mem_singleton.mp hp] at hq
  rw [le_div_iff₀ (by norm_num)] at h1
  rw [div_le_iff₀ (by norm_num)] at h2
  simp only [phasePanels, List.mem_cons, List.not_mem_nil, or_false] at hq
  rcases hq with rfl | rfl | rfl | rfl <;> rcases h with h | h <;> linarith

example : ¬ Spec.Shown 150000 [phasePanels] := C203_phase_false (Or.inr (by norm_num))

/-- If the radii descend, the pages with 1000 km per panel show of the profile only what is at its beginning. -/
theorem C203_order_false : ∃ rho t, rho.Pairwise (· ≥ ·) ∧ tauPages rho = some t ∧ ∃ x ∈ rho, ¬ Spec.Shown x t := by
  have hn : npages 80 75 4 = 1 := by
    have : ⌈((75 : ℚ) - 80) / 4⌉ = -1 := by rw [Int.ceil_eq_iff]; norm_num
    simp [npages, this]
  have ht : tauPages [80000, 75000] = some [[⟨80, 81⟩, ⟨81, 82⟩, ⟨82, 83⟩, ⟨83, 84⟩]] := by
    norm_num [tauPages, hn, pages, rows]
  refine ⟨[80000, 75000], _, by norm_num [List.pairwise_cons], ht, 75000, by simp, ?_⟩
  rintro ⟨page, hp, p, hq, h1, -⟩
  rw [List.mem_singleton.mp hp] at hq
  simp only [List.mem_cons, List.not_mem_nil, or_false] at hq
  rcases hq with rfl | rfl | rfl | rfl <;> norm_num at h1

end Verif.Summary
