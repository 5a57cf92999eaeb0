import Verif.Model.InvRange
import Verif.Props.C134
import Mathlib.Tactic.Linarith
import Mathlib.Tactic.FieldSimp

/-!
# C136: the range that a batch program reconstructs
-/
namespace Verif.Inv
open Verif.Geo Verif.Cal Verif.Rsr
namespace Spec

/-- The row is one of the side that the file name tells, within the radii of the DLP file. -/
def Usable (name : List Char) (rows : List Row) (dlp : List ℚ) (x : Row) : Prop :=
  x ∈ rows ∧ (("I_GEO".toList <:+: name ∧ x.rdot < 0) ∨ (¬ "I_GEO".toList <:+: name ∧ "E_GEO".toList <:+: name ∧ 0 < x.rdot)) ∧
    (∃ d ∈ dlp, d ≤ x.r) ∧ ∃ d ∈ dlp, x.r ≤ d

/-- Half the window that goes with a Fresnel scale. -/
def half (F factor res : ℚ) : ℚ := F * F / (factor * res)

/-- There are usable rows at or beyond both edges of the window around the row. -/
def Fits (name : List Char) (rows : List Row) (dlp : List ℚ) (factor res : ℚ) (x : Row) : Prop :=
  Usable name rows dlp x ∧ (∃ y, Usable name rows dlp y ∧ y.r ≤ x.r - half x.F factor res) ∧
    ∃ y, Usable name rows dlp y ∧ x.r + half x.F factor res ≤ y.r

/-- The greatest range of whole numbers within the request, with both ends between rows that fit. -/
def IsRange (a b : ℤ) (fits : Row → Prop) (lo hi : ℤ) : Prop :=
  a ≤ lo ∧ lo < hi ∧ hi ≤ b ∧ (∃ x, fits x ∧ x.r ≤ lo) ∧ (∃ x, fits x ∧ (hi : ℚ) ≤ x.r) ∧
    (∀ n : ℤ, a ≤ n → (∃ x, fits x ∧ x.r ≤ n) → lo ≤ n) ∧ ∀ n : ℤ, n ≤ b → (∃ x, fits x ∧ (n : ℚ) ≤ x.r) → n ≤ hi

end Spec

theorem window_half (F factor res : ℚ) : window F factor res / 2 = Spec.half F factor res := by
  unfold window Spec.half
  ring

theorem orNone_min (l : List ℚ) : (l = [] ∧ orNone (pyMinL l) = none) ∨ ∃ m, orNone (pyMinL l) = some m ∧ m ∈ l ∧ ∀ y ∈ l, m ≤ y := by
  by_cases h : l = []
  · subst h
    exact Or.inl ⟨rfl, rfl⟩
  · obtain ⟨m, e, h1, h2⟩ := pyMinL_spec l h
    exact Or.inr ⟨m, by rw [e]; rfl, h1, h2⟩

theorem orNone_max (l : List ℚ) : (l = [] ∧ orNone (pyMaxL l) = none) ∨ ∃ m, orNone (pyMaxL l) = some m ∧ m ∈ l ∧ ∀ y ∈ l, y ≤ m := by
  by_cases h : l = []
  · subst h
    exact Or.inl ⟨rfl, rfl⟩
  · obtain ⟨m, e, h1, h2⟩ := pyMaxL_spec l h
    exact Or.inr ⟨m, by rw [e]; rfl, h1, h2⟩

/-- The rows chosen are the usable ones. -/
theorem chosen_spec (name : List Char) (rows : List Row) (dlp : List ℚ) :
    (chosen name rows dlp = none ∧ ∀ x, ¬ Spec.Usable name rows dlp x) ∨
      ∃ kept, chosen name rows dlp = some kept ∧ ∀ x, x ∈ kept ↔ Spec.Usable name rows dlp x := by
  unfold chosen
  rcases orNone_min dlp with ⟨rfl, e⟩ | ⟨lo, e1, m1, l1⟩
  · refine Or.inl ⟨by rw [e], ?_⟩
    rintro x ⟨_, _, ⟨d, hd, _⟩, _⟩
    exact absurd hd (List.not_mem_nil)
  · rcases orNone_max dlp with ⟨rfl, e⟩ | ⟨hi, e2, m2, l2⟩
    · exact absurd m1 List.not_mem_nil
    · rw [e1, e2]
      simp only
      have in1 : ∀ r : ℚ, lo ≤ r ↔ ∃ d ∈ dlp, d ≤ r := fun r => ⟨fun h => ⟨lo, m1, h⟩, fun ⟨d, hd, h⟩ => (l1 d hd).trans h⟩
      have in2 : ∀ r : ℚ, r ≤ hi ↔ ∃ d ∈ dlp, r ≤ d := fun r => ⟨fun h => ⟨hi, m2, h⟩, fun ⟨d, hd, h⟩ => h.trans (l2 d hd)⟩
      by_cases hI : "I_GEO".toList <:+: name
      · rw [if_pos hI]
        refine Or.inr ⟨_, rfl, fun x => ?_⟩
        simp only [List.mem_filter, decide_eq_true_eq, in1, in2, Spec.Usable, hI, not_true_eq_false, false_and, or_false, true_and]
      · rw [if_neg hI]
        by_cases hE : "E_GEO".toList <:+: name
        · rw [if_pos hE]
          refine Or.inr ⟨_, rfl, fun x => ?_⟩
          simp only [List.mem_filter, decide_eq_true_eq, in1, in2, Spec.Usable, hI, hE, not_false_eq_true, false_and, false_or, true_and]
        · rw [if_neg hE]
          refine Or.inl ⟨rfl, ?_⟩
          rintro x ⟨_, h | h, _⟩
          · exact hI h.1
          · exact hE h.2.1

/-- The range of whole numbers is determined. -/
theorem range_unique {a b : ℤ} {fits : Row → Prop} {lo hi lo' hi' : ℤ} (h : Spec.IsRange a b fits lo hi) (h' : Spec.IsRange a b fits lo' hi') :
    lo = lo' ∧ hi = hi' := by
  obtain ⟨a1, a2, a3, a4, a5, a6, a7⟩ := h
  obtain ⟨b1, b2, b3, b4, b5, b6, b7⟩ := h'
  exact ⟨le_antisymm (a6 _ b1 b4) (b6 _ a1 a4), le_antisymm (b7 _ a3 a5) (a7 _ b3 b5)⟩

/-- **C136.** The updated range is the greatest range of whole numbers within the request whose ends lie between samples of the right side
that have their whole window within the data; if there is no such range of more than one number, an exception is raised. -/
theorem C136_update (a b : ℤ) (name : List Char) (rows : List Row) (dlp : List ℚ) (factor res : ℚ) (lo hi : ℤ) :
    update a b name rows dlp factor res = some (lo, hi) ↔ Spec.IsRange a b (Spec.Fits name rows dlp factor res) lo hi := by
  unfold update
  rcases chosen_spec name rows dlp with ⟨e, none⟩ | ⟨kept, e, hk⟩
  · rw [e]
    constructor
    · intro h
      cases h
    · rintro ⟨_, _, _, ⟨x, hx, _⟩, _⟩
      exact absurd hx.1 (none x)
  · rw [e]
    simp only [Option.bind_eq_bind, Option.bind_some]
    unfold updateRows
    rcases orNone_min (kept.map Row.r) with ⟨e0, e1⟩ | ⟨least, e1, m1, l1⟩
    · rw [e1]
      constructor
      · intro h
        cases h
      · rintro ⟨_, _, _, ⟨x, hx, _⟩, _⟩
        have := List.mem_map_of_mem (f := Row.r) ((hk x).2 hx.1)
        rw [e0] at this
        exact absurd this List.not_mem_nil
    · rcases orNone_max (kept.map Row.r) with ⟨e0, _⟩ | ⟨greatest, e2, m2, l2⟩
      · rw [e0] at m1
        exact absurd m1 List.not_mem_nil
      · rw [e1, e2]
        simp only [Option.bind_eq_bind, Option.bind_some]
        obtain ⟨ll, hll⟩ : ∃ ll, kept.filter (fun x => decide (least ≤ x.r - window x.F factor res / 2 ∧ x.r + window x.F factor res / 2 ≤ greatest)) = ll := ⟨_, rfl⟩
        rw [hll]
        have fits : ∀ x, x ∈ ll ↔ Spec.Fits name rows dlp factor res x := by
          intro x
          rw [← hll, List.mem_filter, decide_eq_true_eq, window_half, hk]
          obtain ⟨u, hu, eu⟩ := List.mem_map.1 m1
          obtain ⟨v, hv, ev⟩ := List.mem_map.1 m2
          constructor
          · rintro ⟨h1, h2, h3⟩
            exact ⟨h1, ⟨u, (hk u).1 hu, by rw [eu]; exact h2⟩, v, (hk v).1 hv, by rw [ev]; exact h3⟩
          · rintro ⟨h1, ⟨y, hy, h2⟩, z, hz, h3⟩
            exact ⟨h1, (l1 _ (List.mem_map_of_mem ((hk y).2 hy))).trans h2, h3.trans (l2 _ (List.mem_map_of_mem ((hk z).2 hz)))⟩
        rcases orNone_min (ll.map Row.r) with ⟨e0, e3⟩ | ⟨first, e3, m3, l3⟩
        · rw [e3]
          constructor
          · intro h
            cases h
          · rintro ⟨_, _, _, ⟨x, hx, _⟩, _⟩
            have := List.mem_map_of_mem (f := Row.r) ((fits x).2 hx)
            rw [e0] at this
            exact absurd this List.not_mem_nil
        · rcases orNone_max (ll.map Row.r) with ⟨e0, _⟩ | ⟨last, e4, m4, l4⟩
          · rw [e0] at m3
            exact absurd m3 List.not_mem_nil
          · rw [e3, e4]
            simp only [Option.bind_some]
            obtain ⟨u, hu, eu⟩ := List.mem_map.1 m3
            obtain ⟨v, hv, ev⟩ := List.mem_map.1 m4
            have low : ∀ n : ℤ, (∃ x, Spec.Fits name rows dlp factor res x ∧ x.r ≤ n) ↔ ⌈first⌉ ≤ n := by
              intro n
              rw [Int.ceil_le]
              constructor
              · rintro ⟨x, hx, h⟩
                exact (l3 _ (List.mem_map_of_mem ((fits x).2 hx))).trans h
              · intro h
                exact ⟨u, (fits u).1 hu, by rw [eu]; exact h⟩
            have high : ∀ n : ℤ, (∃ x, Spec.Fits name rows dlp factor res x ∧ (n : ℚ) ≤ x.r) ↔ n ≤ ⌊last⌋ := by
              intro n
              rw [Int.le_floor]
              constructor
              · rintro ⟨x, hx, h⟩
                exact h.trans (l4 _ (List.mem_map_of_mem ((fits x).2 hx)))
              · intro h
                exact ⟨v, (fits v).1 hv, by rw [ev]; exact h⟩
            unfold Spec.IsRange
            simp only [low, high]
            constructor
            · intro h
              split at h
              · cases h
              · rename_i hn
                simp only [Option.some.injEq, Prod.mk.injEq] at h
                obtain ⟨rfl, rfl⟩ := h
                refine ⟨le_max_left _ _, not_le.1 hn, min_le_left _ _, le_max_right _ _, min_le_right _ _, fun n h1 h2 => max_le h1 h2, fun n h1 h2 => le_min h1 h2⟩
            · rintro ⟨h1, h2, h3, h4, h5, h6, h7⟩
              have el : max a ⌈first⌉ = lo := le_antisymm (max_le h1 h4) (h6 _ (le_max_left _ _) (le_max_right _ _))
              have eh : min b ⌊last⌋ = hi := le_antisymm (h7 _ (min_le_left _ _) (min_le_right _ _)) (le_min h3 h5)
              rw [el, eh, if_neg (not_le.2 h2)]

/-- **C136.** The result lies within the radii of the DLP file, so that the second comparison of lines 204-211, which looks at the lower
end of the range twice, lets nothing wrong pass. -/
theorem C136_dlp {a b : ℤ} {name : List Char} {rows : List Row} {dlp : List ℚ} {factor res : ℚ} {lo hi : ℤ}
    (h : update a b name rows dlp factor res = some (lo, hi)) : (∃ d ∈ dlp, d ≤ lo) ∧ ∃ d ∈ dlp, (hi : ℚ) ≤ d := by
  obtain ⟨_, _, _, ⟨x, hx, h1⟩, ⟨y, hy, h2⟩, _⟩ := (C136_update ..).1 h
  obtain ⟨d, hd, e⟩ := hx.1.2.2.1
  obtain ⟨d', hd', e'⟩ := hy.1.2.2.2
  exact ⟨⟨d, hd, e.trans h1⟩, d', hd', h2.trans e'⟩

/-- **C136.** Each sample within the result has its whole window within the data, if the edges of the windows move in the direction of the
samples. -/
theorem C136_samples_partial {a b : ℤ} {name : List Char} {rows : List Row} {dlp : List ℚ} {factor res : ℚ} {lo hi : ℤ}
    (h : update a b name rows dlp factor res = some (lo, hi))
    (mono : ∀ x ∈ rows, ∀ y ∈ rows, x.r ≤ y.r → x.r - Spec.half x.F factor res ≤ y.r - Spec.half y.F factor res ∧
      x.r + Spec.half x.F factor res ≤ y.r + Spec.half y.F factor res)
    {x : Row} (hx : Spec.Usable name rows dlp x) (h1 : (lo : ℚ) ≤ x.r) (h2 : x.r ≤ hi) : Spec.Fits name rows dlp factor res x := by
  obtain ⟨_, _, _, ⟨u, hu, k1⟩, ⟨v, hv, k2⟩, _⟩ := (C136_update ..).1 h
  refine ⟨hx, ?_, ?_⟩
  · obtain ⟨z, hz, e⟩ := hu.2.1
    exact ⟨z, hz, e.trans (mono u hu.1.1 x hx.1 (k1.trans h1)).1⟩
  · obtain ⟨z, hz, e⟩ := hv.2.2
    exact ⟨z, hz, (mono x hx.1 v hv.1.1 (h2.trans k2)).2.trans e⟩

/-- **C136.** A second update does nothing. -/
theorem C136_again {a b : ℤ} {name : List Char} {rows : List Row} {dlp : List ℚ} {factor res : ℚ} {lo hi : ℤ}
    (h : update a b name rows dlp factor res = some (lo, hi)) : update lo hi name rows dlp factor res = some (lo, hi) := by
  obtain ⟨_, h2, _, h4, h5, _, _⟩ := (C136_update ..).1 h
  exact (C136_update ..).2 ⟨le_refl _, h2, le_refl _, h4, h5, fun n hn _ => hn, fun n hn _ => hn⟩

/-- **C136.** A wider request is not answered with less. -/
theorem C136_wider {a b a' b' : ℤ} {name : List Char} {rows : List Row} {dlp : List ℚ} {factor res : ℚ} {lo hi : ℤ}
    (h : update a b name rows dlp factor res = some (lo, hi)) (ha : a' ≤ a) (hb : b ≤ b') :
    ∃ lo' hi', update a' b' name rows dlp factor res = some (lo', hi') ∧ lo' ≤ lo ∧ hi ≤ hi' := by
  obtain ⟨h1, h2, h3, h4, h5, h6, h7⟩ := (C136_update ..).1 h
  obtain ⟨x, hx, k1⟩ := h4
  obtain ⟨y, hy, k2⟩ := h5
  -- the least and greatest whole numbers exist since the numbers are bounded
  have low : ∃ lo' : ℤ, (a' ≤ lo' ∧ ∃ x, Spec.Fits name rows dlp factor res x ∧ x.r ≤ lo') ∧
      ∀ n : ℤ, (a' ≤ n ∧ ∃ x, Spec.Fits name rows dlp factor res x ∧ x.r ≤ n) → lo' ≤ n :=
    Int.exists_least_of_bdd ⟨a', fun n hn => hn.1⟩ ⟨lo, ha.trans h1, x, hx, k1⟩
  have high : ∃ hi' : ℤ, (hi' ≤ b' ∧ ∃ x, Spec.Fits name rows dlp factor res x ∧ (hi' : ℚ) ≤ x.r) ∧
      ∀ n : ℤ, (n ≤ b' ∧ ∃ x, Spec.Fits name rows dlp factor res x ∧ (n : ℚ) ≤ x.r) → n ≤ hi' :=
    Int.exists_greatest_of_bdd ⟨b', fun n hn => hn.1⟩ ⟨hi, h3.trans hb, y, hy, k2⟩
  obtain ⟨lo', ⟨l1, l2⟩, l3⟩ := low
  obtain ⟨hi', ⟨g1, g2⟩, g3⟩ := high
  have e1 := l3 lo ⟨ha.trans h1, x, hx, k1⟩
  have e2 := g3 hi ⟨h3.trans hb, y, hy, k2⟩
  exact ⟨lo', hi', (C136_update ..).2 ⟨l1, by omega, g1, l2, g2, fun n h h' => l3 n ⟨h, h'⟩, fun n h h' => g3 n ⟨h, h'⟩⟩, e1, e2⟩

/-- A GEO file with the radii 100, 102, … 120 on egress. -/
def tenRows (F : ℚ) : List Row := (List.range 11).map fun k => ⟨100 + 2 * k, 1, F⟩

def egress : List Char := "x_E_GEO.TAB".toList

/-- The windows are 6 km wide. -/
example : update 90 200 egress (tenRows 3) [99, 130] 3 1 = some (104, 116) ∧
    accepted 90 200 egress (tenRows 3) [99, 130] 3 1 = some (104, 116) ∧
    update 106 110 egress (tenRows 3) [99, 130] 3 1 = some (106, 110) ∧
    update 118 200 egress (tenRows 3) [99, 130] 3 1 = none ∧ update 90 200 "x_I_GEO.TAB".toList (tenRows 3) [99, 130] 3 1 = none := by decide +kernel

/-- The hypothesis of `C136_samples_partial` holds there. -/
example : ∀ x ∈ tenRows 3, ∀ y ∈ tenRows 3, x.r ≤ y.r → x.r - Spec.half x.F 3 1 ≤ y.r - Spec.half y.F 3 1 ∧
    x.r + Spec.half x.F 3 1 ≤ y.r + Spec.half y.F 3 1 := by decide +kernel

/-- **C136 is false for single samples:** a sample in the middle may need a window that is not there. -/
theorem C136_samples_false : ∃ (rows : List Row) (dlp : List ℚ) (x : Row), Spec.Usable egress rows dlp x ∧
    update 90 200 egress rows dlp 1 1 = some (101, 109) ∧ accepted 90 200 egress rows dlp 1 1 = some (101, 109) ∧ (101 : ℚ) ≤ x.r ∧ x.r ≤ 109 ∧
      ¬ Spec.Fits egress rows dlp 1 1 x := by
  refine ⟨[⟨100, 1, 1⟩, ⟨101, 1, 1⟩, ⟨105, 1, 3⟩, ⟨109, 1, 1⟩, ⟨110, 1, 1⟩], [100, 110], ⟨105, 1, 3⟩, ?_, by decide +kernel, by decide +kernel, by norm_num, by norm_num, ?_⟩
  · exact ⟨by simp, Or.inr ⟨by decide +kernel, by decide +kernel, by norm_num⟩, ⟨100, by simp, by norm_num⟩, 110, by simp, by norm_num⟩
  · rintro ⟨_, ⟨y, hy, h⟩, _⟩
    have : ∀ y ∈ [(⟨100, 1, 1⟩ : Row), ⟨101, 1, 1⟩, ⟨105, 1, 3⟩, ⟨109, 1, 1⟩, ⟨110, 1, 1⟩], ¬ y.r ≤ 105 - Spec.half 3 1 1 := by decide +kernel
    exact this y hy.1 h

/-- **C136 is false for the updated range:** the check that follows rounds the radii outwards and may refuse a range all whose windows
are within the data. -/
theorem C136_refused_false : ∃ (rows : List Row) (dlp : List ℚ), update 90 200 egress rows dlp 6 1 = some (102, 108) ∧
    accepted 90 200 egress rows dlp 6 1 = none ∧ (∀ x ∈ rows, x.F = 3) ∧ (∀ x ∈ rows, 0 < x.rdot) ∧
      (∃ x ∈ rows, x.r ≤ 102 - Spec.half 3 6 1) ∧ ∃ x ∈ rows, 108 + Spec.half 3 6 1 ≤ x.r := by
  refine ⟨[⟨100.5, 1, 3⟩, ⟨102, 1, 3⟩, ⟨105, 1, 3⟩, ⟨108, 1, 3⟩, ⟨109.5, 1, 3⟩], [100, 110], ?_, ?_, ?_, ?_, ?_, ?_⟩ <;> decide +kernel

/-- What `accepted` says about its parts. -/
theorem accepted_parts {a b : ℤ} {name : List Char} {rows : List Row} {dlp : List ℚ} {factor res : ℚ} {lo hi : ℤ}
    (h : accepted a b name rows dlp factor res = some (lo, hi)) : update a b name rows dlp factor res = some (lo, hi) ∧
      ∃ kept, chosen name rows dlp = some kept ∧ valid lo hi kept factor res = some true ∧ spans dlp lo = true := by
  unfold accepted at h
  rcases hu : update a b name rows dlp factor res with _ | ⟨l, u⟩
  · rw [hu] at h
    cases h
  rw [hu] at h
  rcases hc : chosen name rows dlp with _ | kept
  · rw [hc] at h
    cases h
  rw [hc] at h
  simp only [Option.bind_eq_bind, Option.bind_some] at h
  rcases hv : valid l u kept factor res with _ | ok
  · rw [hv] at h
    cases h
  rw [hv] at h
  simp only [Option.bind_some] at h
  cases ok
  · rw [if_pos rfl] at h
    cases h
  rcases hs : spans dlp l with _ | _
  · rw [hs] at h
    cases h
  rw [hs] at h
  simp only [Bool.true_eq_false, if_false, Option.some.injEq, Prod.mk.injEq] at h
  obtain ⟨rfl, rfl⟩ := h
  exact ⟨rfl, kept, rfl, hv, hs⟩

/-- Sides, files and windows decide which ranges are accepted: one that is accepted is the updated one. -/
theorem C136_accepted {a b : ℤ} {name : List Char} {rows : List Row} {dlp : List ℚ} {factor res : ℚ} {lo hi : ℤ}
    (h : accepted a b name rows dlp factor res = some (lo, hi)) : Spec.IsRange a b (Spec.Fits name rows dlp factor res) lo hi :=
  (C136_update ..).1 (accepted_parts h).1

/-- **C136.** At the ends of a range that is accepted, the window interpolated between the samples lies within the data, for a file that is
in the order of the radii and does not hold one row only. -/
theorem C136_ends {a b : ℤ} {name : List Char} {rows : List Row} {dlp : List ℚ} {factor res : ℚ} {lo hi : ℤ}
    (h : accepted a b name rows dlp factor res = some (lo, hi)) (mono : RadCorr.Spec.Monotone (rows.map Row.r)) :
    ∃ kept : List Row, (∀ x, x ∈ kept ↔ Spec.Usable name rows dlp x) ∧ ∃ w w' : ℚ,
      Geo.Spec.OnPolygon (kept.map Row.r) (kept.map fun x => 2 * Spec.half x.F factor res) lo w ∧
      Geo.Spec.OnPolygon (kept.map Row.r) (kept.map fun x => 2 * Spec.half x.F factor res) hi w' ∧
      (∃ y ∈ kept, y.r ≤ lo - w / 2) ∧ ∃ y ∈ kept, (hi : ℚ) + w' / 2 ≤ y.r := by
  obtain ⟨hu, kept, hc, hv, _⟩ := accepted_parts h
  have hk : ∀ x, x ∈ kept ↔ Spec.Usable name rows dlp x := by
    rcases chosen_spec name rows dlp with ⟨e, _⟩ | ⟨k, e, hk⟩
    · rw [e] at hc
      cases hc
    · rw [e] at hc
      cases hc
      exact hk
  have sub : kept.Sublist rows := by
    unfold chosen at hc
    split at hc
    · split at hc
      · cases hc
        exact List.filter_sublist
      · split at hc
        · cases hc
          exact List.filter_sublist
        · cases hc
    · cases hc
  have mono' : RadCorr.Spec.Monotone (kept.map Row.r) := by
    rcases mono with m | m
    · exact Or.inl (List.Pairwise.sublist (sub.map _) m)
    · exact Or.inr (List.Pairwise.sublist (sub.map _) m)
  obtain ⟨_, hlt, _, ⟨x, hx, k1⟩, ⟨y, hy, k2⟩, _⟩ := (C136_update ..).1 hu
  have hxk := (hk x).2 hx.1
  have hyk := (hk y).2 hy.1
  have two : 2 ≤ (kept.map Row.r).length := by
    rw [List.length_map]
    have hne : x ≠ y := by
      rintro rfl
      have : (lo : ℚ) < hi := by exact_mod_cast hlt
      linarith
    rcases kept with _ | ⟨p, _ | ⟨q, t⟩⟩
    · exact absurd hxk List.not_mem_nil
    · simp only [List.mem_singleton] at hxk hyk
      exact absurd (hxk.trans hyk.symm) hne
    · simp
  have hlh : (lo : ℚ) < hi := by exact_mod_cast hlt
  have win : (kept.map fun x => window x.F factor res) = kept.map fun x => 2 * Spec.half x.F factor res := by
    apply List.map_congr_left
    intro z _
    rw [← window_half]
    ring
  have bet : ∀ v : ℚ, x.r ≤ v → v ≤ y.r → Geo.Spec.OnPolygon (kept.map Row.r) (kept.map fun x => 2 * Spec.half x.F factor res) v
      (interp1d (kept.map Row.r) (kept.map fun x => window x.F factor res) v) := by
    intro v h1 h2
    rw [win]
    have b1 := RadCorr.mono_between mono' (List.mem_map_of_mem (f := Row.r) hxk)
    have b2 := RadCorr.mono_between mono' (List.mem_map_of_mem (f := Row.r) hyk)
    exact RadCorr.interp_mono mono' (by simp) two v ⟨b1.1.trans h1, h2.trans b2.2⟩
  refine ⟨kept, hk, _, _, bet lo k1 (by linarith), bet hi (by linarith) k2, ?_⟩
  unfold valid required at hv
  rcases orNone_min (kept.map Row.r) with ⟨e0, _⟩ | ⟨least, e1, m1, l1⟩
  · rw [e0] at two
    simp at two
  rcases orNone_max (kept.map Row.r) with ⟨e0, _⟩ | ⟨greatest, e2, m2, l2⟩
  · rw [e0] at two
    simp at two
  rw [e1, e2] at hv
  simp only [Option.bind_eq_bind, Option.bind_some] at hv
  split at hv
  · cases hv
  · simp only [Option.bind_some, Option.some.injEq, decide_eq_true_eq] at hv
    obtain ⟨u, hu', eu⟩ := List.mem_map.1 m1
    obtain ⟨v, hv', ev⟩ := List.mem_map.1 m2
    refine ⟨⟨u, hu', ?_⟩, v, hv', ?_⟩
    · rw [eu]
      exact hv.1.trans (Int.floor_le _)
    · rw [ev]
      exact (Int.le_ceil _).trans hv.2

example : RadCorr.Spec.Monotone ((tenRows 3).map Row.r) := Or.inl (by unfold Geo.Spec.Growing; decide +kernel)

/-- **C136 is false for the library:** its windows are wider by the normalized equivalent width, 1.65 for the default window, so that the
window at an end of an accepted range does not lie within the data. -/
theorem C136_library_false : accepted 90 200 egress (tenRows 3) [99, 130] 3 1 = some (104, 116) ∧ (∀ x ∈ tenRows 3, x.F = 3) ∧
    ¬ ∃ x ∈ tenRows 3, x.r ≤ 104 - libWindow 1.65 3 3 1 / 2 := by decide +kernel

/-- The width is that of the checks times the normalized equivalent width. -/
theorem C136_library (normeq F factor res : ℚ) : libWindow normeq F factor res / 2 = normeq * Spec.half F factor res := by
  unfold libWindow Spec.half
  rw [mul_comm res factor]
  ring

/-- **C136.** A range that is checked with the resolution factor divided by the normalized equivalent width has room for the windows of
the library. -/
theorem C136_library_fits {a b : ℤ} {name : List Char} {rows : List Row} {dlp : List ℚ} {factor res normeq : ℚ} {lo hi : ℤ} (hn : normeq ≠ 0)
    (h : update a b name rows dlp (factor / normeq) res = some (lo, hi)) :
    (∃ x y, Spec.Usable name rows dlp x ∧ Spec.Usable name rows dlp y ∧ x.r ≤ lo ∧ y.r ≤ x.r - libWindow normeq x.F factor res / 2) ∧
      ∃ x y, Spec.Usable name rows dlp x ∧ Spec.Usable name rows dlp y ∧ (hi : ℚ) ≤ x.r ∧ x.r + libWindow normeq x.F factor res / 2 ≤ y.r := by
  have e : ∀ F : ℚ, Spec.half F (factor / normeq) res = libWindow normeq F factor res / 2 := by
    intro F
    rw [C136_library]
    unfold Spec.half
    by_cases h0 : factor * res = 0
    · rcases mul_eq_zero.1 h0 with h | h <;> simp [h]
    · have : factor ≠ 0 := left_ne_zero_of_mul h0
      have : res ≠ 0 := right_ne_zero_of_mul h0
      field_simp
  obtain ⟨_, _, _, ⟨x, hx, k1⟩, ⟨y, hy, k2⟩, _⟩ := (C136_update ..).1 h
  obtain ⟨u, hu, e1⟩ := hx.2.1
  obtain ⟨v, hv, e2⟩ := hy.2.2
  rw [e] at e1 e2
  exact ⟨⟨x, u, hx.1, hu, k1, e1⟩, y, v, hy.1, hv, k2, e2⟩

example : update 90 200 egress (tenRows 3) [99, 130] (3 / 1.65) 1 = some (106, 114) := by decide +kernel

end Verif.Inv
