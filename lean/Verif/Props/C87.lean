import Verif.Props.C86

/-!
# C87: free-space regions
-/
namespace Verif.Geo
open Verif.Rsr Spec

/-- The ranges of the edges of the pairs of rows. -/
def edgesOf : List (ℚ × ℚ × ℚ × ℚ) → List Edges
  | r1 :: r2 :: rest => ⟨r1.1 - r1.2.1, r1.1 + r1.2.1, r2.1 - r2.2.1, r2.1 + r2.2.1⟩ :: edgesOf rest
  | _ => []

theorem edges_table : edgesOf gapTable = knownGaps := by decide +kernel

theorem gapLoop_spec (radius : Orbit → Py ℚ) (rho1 rho2 : ℚ) : ∀ (rows : List (ℚ × ℚ × ℚ × ℚ)),
    (∀ r ∈ rows, ∃ x, radius (rowOrbit r) = .ok x ∧ r.1 - r.2.1 ≤ x ∧ x ≤ r.1 + r.2.1) →
    ∃ gaps ps, gapLoop radius rho1 rho2 rows = .ok gaps ∧ ps.Sublist (edgesOf rows) ∧ List.Forall₂ Within ps gaps ∧
      (∀ p ∈ edgesOf rows, rho1 < p.innerMin → p.outerMax < rho2 → p ∈ ps) ∧
      ∀ g ∈ gaps, rho1 < g.1 ∧ g.2 < rho2 := by
  intro rows
  induction rows using edgesOf.induct with
  | case1 r1 r2 rest ih =>
    intro h
    obtain ⟨gaps, ps, e, s, f, c, b⟩ := ih (fun r hr => h r (by simp [hr]))
    obtain ⟨x, hx, x1, x2⟩ := h r1 (by simp)
    obtain ⟨y, hy, y1, y2⟩ := h r2 (by simp)
    have e' : gapLoop radius rho1 rho2 (r1 :: r2 :: rest) = .ok (if rho1 < x ∧ y < rho2 then (x, y) :: gaps else gaps) := by
      unfold gapLoop
      simp only [hx, hy, e, bind, Except.bind]
      rfl
    rw [e']
    by_cases hk : rho1 < x ∧ y < rho2
    · rw [if_pos hk]
      refine ⟨_, _ :: ps, rfl, List.Sublist.cons_cons _ s, List.Forall₂.cons ⟨x1, x2, y1, y2⟩ f, ?_, ?_⟩
      · intro p hp h1 h2
        rcases List.mem_cons.mp hp with rfl | hp
        · simp
        · exact List.mem_cons_of_mem _ (c p hp h1 h2)
      · intro g hg
        rcases List.mem_cons.mp hg with rfl | hg
        · exact hk
        · exact b g hg
    · rw [if_neg hk]
      refine ⟨_, ps, rfl, List.Sublist.cons _ s, f, ?_, b⟩
      intro p hp h1 h2
      rcases List.mem_cons.mp hp with rfl | hp
      · exact absurd ⟨lt_of_lt_of_le h1 x1, lt_of_le_of_lt y2 h2⟩ hk
      · exact c p hp h1 h2
  | case2 rows hr =>
    intro _
    refine ⟨[], [], ?_, by simp, List.Forall₂.nil, ?_, by simp⟩
    · unfold gapLoop
      split
      · rename_i a b c _; exact absurd rfl (hr _ _ _)
      · rfl
    · intro p hp
      rw [edgesOf] at hp
      · simp at hp
      · exact hr

theorem known_order : knownGaps.Pairwise fun p q => p.innerMax < q.innerMin ∧ p.outerMax < q.outerMin := by decide +kernel

theorem known_inside : ∀ p ∈ knownGaps, p.innerMax < p.outerMin ∧ 77744 < p.innerMin ∧ p.outerMax < 120038 := by decide +kernel

theorem ordered_of_within : ∀ (gaps : List (ℚ × ℚ)) (ps : List Edges), List.Forall₂ Within ps gaps →
    (ps.Pairwise fun p q => p.innerMax < q.innerMin ∧ p.outerMax < q.outerMin) →
    (∀ p ∈ ps, p.innerMax < p.outerMin ∧ 77744 < p.innerMin ∧ p.outerMax < 120038) →
    Ordered gaps ∧ ∀ g ∈ gaps, 77744 < g.1 ∧ g.2 < 120038 := by
  intro gaps ps f
  induction f with
  | nil => intro _ _; exact ⟨⟨by simp, List.Pairwise.nil⟩, by simp⟩
  | @cons p g ps gs hw f ih =>
    intro hp hi
    rw [List.pairwise_cons] at hp
    obtain ⟨⟨o1, o2⟩, o3⟩ := ih hp.2 (fun p hp => hi p (by simp [hp]))
    obtain ⟨w1, w2, w3, w4⟩ := hw
    obtain ⟨i1, i2, i3⟩ := hi p (by simp)
    refine ⟨⟨?_, ?_⟩, ?_⟩
    · intro g' hg
      rcases List.mem_cons.mp hg with rfl | hg
      · linarith
      · exact o1 g' hg
    · rw [List.pairwise_cons]
      refine ⟨?_, o2⟩
      intro g' hg
      have : ∃ q ∈ ps, Within q g' := by
        clear ih o1 o2 o3 hp hi
        induction f with
        | nil => simp at hg
        | cons h f ih' =>
          rcases List.mem_cons.mp hg with rfl | hg
          · exact ⟨_, by simp, h⟩
          · obtain ⟨q, a, b⟩ := ih' hg; exact ⟨q, by simp [a], b⟩
      obtain ⟨q, hq, u1, u2, u3, u4⟩ := this
      obtain ⟨v1, v2⟩ := hp.1 q hq
      constructor <;> linarith
    · intro g' hg
      rcases List.mem_cons.mp hg with rfl | hg
      · constructor <;> linarith
      · exact o3 g' hg

/-- **C87** For every profile `find_gaps` returns the edges of known gaps, in order; each is between the least and the greatest
radius, and each known gap whose edges can only be between them is returned. -/
theorem C87_gaps (cosd : ℚ → ℚ) (hc : ∀ x, -1 ≤ cosd x ∧ cosd x ≤ 1) (startJd : ℚ) (ret rho phi : List ℚ) (h : rho ≠ [])
    (h1 : ret.length = rho.length) (h2 : phi.length = rho.length) :
    ∃ gaps ps, findGaps cosd startJd ret rho phi = .ok gaps ∧ Ordered gaps ∧ ps.Sublist knownGaps ∧ List.Forall₂ Within ps gaps ∧
      (∀ p ∈ knownGaps, (∃ r ∈ rho, r < p.innerMin) → (∃ r ∈ rho, p.outerMax < r) → p ∈ ps) ∧
      ∀ g ∈ gaps, (∃ r ∈ rho, r < g.1) ∧ (∃ r ∈ rho, g.2 < r) ∧ 77744 < g.1 ∧ g.2 < 120038 := by
  obtain ⟨m, m1, m2, m3⟩ := pyMinL_spec rho h
  obtain ⟨M, M1, M2, M3⟩ := pyMaxL_spec rho h
  have hr : ∀ r ∈ gapTable, ∃ x, radConverge cosd (ret.map fun t => startJd - 2454467 + t / 86400) rho phi (rowOrbit r) 100 (1 / 1000) = .ok x ∧
      r.1 - r.2.1 ≤ x ∧ x ≤ r.1 + r.2.1 := by
    intro r hr
    have tb : ∀ r ∈ gapTable, 0 < r.1 ∧ 0 ≤ r.2.1 ∧ r.2.1 < r.1 := by decide +kernel
    obtain ⟨t1, t2, t3⟩ := tb r hr
    obtain ⟨g, N, e, -, -, b, -⟩ := C86_radius_partial cosd hc (ret.map fun t => startJd - 2454467 + t / 86400) rho phi (rowOrbit r)
      100 (1 / 1000) h (by simpa using h1) h2 t1 (div_nonneg t2 t1.le) ((div_lt_one t1).mpr t3)
    obtain ⟨b1, b2⟩ := b (N + 1)
    have x1 : r.1 * (1 - r.2.1 / r.1) = r.1 - r.2.1 := by field_simp
    have x2 : r.1 * (1 + r.2.1 / r.1) = r.1 + r.2.1 := by field_simp
    exact ⟨_, e, by rw [← x1]; exact b1, by rw [← x2]; exact b2⟩
  obtain ⟨gaps, ps, e, s, f, c, b⟩ := gapLoop_spec (fun o => radConverge cosd (ret.map fun t => startJd - 2454467 + t / 86400) rho phi o 100 (1 / 1000)) m M gapTable hr
  rw [edges_table] at s c
  obtain ⟨o, o'⟩ := ordered_of_within gaps ps f (known_order.sublist s) (fun p hp => known_inside p (s.subset hp))
  refine ⟨gaps, ps, ?_, o, s, f, ?_, ?_⟩
  · unfold findGaps
    simp only [m1, M1, bind, Except.bind]
    exact e
  · rintro p hp ⟨r, r1, r2⟩ ⟨r', r1', r2'⟩
    exact c p hp (lt_of_le_of_lt (m3 r r1) r2) (lt_of_lt_of_le r2' (M3 r' r1'))
  · intro g hg
    obtain ⟨g1, g2⟩ := b g hg
    obtain ⟨g3, g4⟩ := o' g hg
    exact ⟨⟨m, m2, g1⟩, ⟨M, M2, g2⟩, g3, g4⟩

/-- A profile from 70000 to 118000 km. -/
example : ∃ gaps ps, findGaps (fun _ => 0) 2454467 [0, 1, 2] [70000, 100000, 118000] [90, 90, 90] = .ok gaps ∧
    List.Forall₂ Within ps gaps ∧ ⟨87342.77, 87342.77, 87461.36, 87499.22⟩ ∈ ps := by
  obtain ⟨gaps, ps, e, -, -, f, c, -⟩ := C87_gaps (fun _ => 0) (fun _ => by norm_num) 2454467 [0, 1, 2] [70000, 100000, 118000]
    [90, 90, 90] (by decide) rfl rfl
  exact ⟨gaps, ps, e, f, c _ (by decide +kernel) ⟨70000, by decide, by norm_num⟩ ⟨118000, by decide, by norm_num⟩⟩

theorem Ordered.append {l l' : List (ℚ × ℚ)} (x : ℚ) (h : Ordered l) (h' : Ordered l') (hl : ∀ g ∈ l, g.2 ≤ x)
    (hl' : ∀ g ∈ l', x ≤ g.1) : Ordered (l ++ l') := by
  refine ⟨?_, ?_⟩
  · intro g hg
    rcases List.mem_append.mp hg with hg | hg
    · exact h.1 g hg
    · exact h'.1 g hg
  · rw [List.pairwise_append]
    refine ⟨h.2, h'.2, ?_⟩
    intro g hg g' hg'
    have a := hl g hg
    have b := hl' g' hg'
    have c := h.1 g hg
    have d := h'.1 g' hg'
    constructor <;> linarith

theorem Ordered.ite (p : Prop) [Decidable p] (g : ℚ × ℚ) (h : g.1 < g.2) : Ordered (if p then [] else [g]) := by
  split
  · exact ⟨by simp, List.Pairwise.nil⟩
  · exact ⟨by simpa using h, by simp⟩

/-- **C87** For every profile the free-space regions are in order, between the least and the greatest radius, and consist of
the region inside 72000 km, known gaps, and the three fixed regions, each of which is present exactly if it lies between the
least and the greatest radius. -/
theorem C87_regions (cosd : ℚ → ℚ) (hc : ∀ x, -1 ≤ cosd x ∧ cosd x ≤ 1) (startJd : ℚ) (ret rho phi : List ℚ) (h : rho ≠ [])
    (h1 : ret.length = rho.length) (h2 : phi.length = rho.length) :
    ∃ km, getFreespaceKm cosd startJd ret rho phi = .ok km ∧ Ordered km ∧
      (∀ g ∈ km, (∃ r ∈ rho, r ≤ g.1) ∧ ∃ r ∈ rho, g.2 ≤ r) ∧
      (∀ g ∈ km, (g.1 ∈ rho ∧ g.2 = 72000) ∨ (∃ p ∈ knownGaps, Within p g) ∨
        g ∈ [((133500 : ℚ), (133650 : ℚ)), (137000, 143000), (143000, 170000)]) ∧
      (∀ g ∈ [((133500 : ℚ), (133650 : ℚ)), (137000, 143000), (143000, 170000)],
        (g ∈ km ↔ (∃ r ∈ rho, r ≤ g.1) ∧ ∃ r ∈ rho, g.2 ≤ r)) ∧
      ((∃ g ∈ km, g.2 = 72000) ↔ (∃ r ∈ rho, r < 72000) ∧ ∃ r ∈ rho, 72000 < r) := by
  obtain ⟨m, m1, m2, m3⟩ := pyMinL_spec rho h
  obtain ⟨M, M1, M2, M3⟩ := pyMaxL_spec rho h
  obtain ⟨gaps, ps, e, o, s, f, -, b⟩ := C87_gaps cosd hc startJd ret rho phi h h1 h2
  have ek : getFreespaceKm cosd startJd ret rho phi =
      .ok ((if m < 72000 ∧ 72000 < M then [(m, 72000)] else []) ++ gaps ++ (if 133500 < m ∨ M < 133650 then [] else [(133500, 133650)]) ++
        (if 137000 < m ∨ M < 143000 then [] else [(137000, 143000)]) ++
        (if 143000 < m ∨ M < 170000 then [] else [(143000, 170000)])) := by
    unfold getFreespaceKm
    simp only [m1, M1, e, bind, Except.bind]
    rfl
  have mem : ∀ (p : Prop) [Decidable p] (a g : ℚ × ℚ), g ∈ (if p then [] else [a]) ↔ ¬ p ∧ g = a := by
    intro p _ a g; split <;> simp [*]
  have mem' : ∀ (p : Prop) [Decidable p] (a g : ℚ × ℚ), g ∈ (if p then [a] else []) ↔ p ∧ g = a := by
    intro p _ a g; split <;> simp [*]
  have lohi : ∀ a b : ℚ, (¬ (a < m ∨ M < b)) ↔ (∃ r ∈ rho, r ≤ a) ∧ ∃ r ∈ rho, b ≤ r := by
    intro a b
    constructor
    · intro hn
      rw [not_or, not_lt, not_lt] at hn
      exact ⟨⟨m, m2, hn.1⟩, ⟨M, M2, hn.2⟩⟩
    · rintro ⟨⟨r, r1, r2⟩, ⟨r', r1', r2'⟩⟩ (hx | hx)
      · have := m3 r r1; linarith
      · have := M3 r' r1'; linarith
  refine ⟨_, ek, ?_, ?_, ?_, ?_, ?_⟩
  · have o0 : Ordered (if m < 72000 ∧ 72000 < M then [(m, 72000)] else []) := by
      split
      · rename_i hx; exact ⟨by simpa using hx.1, by simp⟩
      · exact ⟨by simp, List.Pairwise.nil⟩
    have a1 := Ordered.append 72000 o0 o (by intro g hg; rw [((mem' _ _ g).mp hg).2]) (fun g hg => by have := (b g hg).2.2.1; linarith)
    have a2 := Ordered.append 133500 a1 (Ordered.ite (133500 < m ∨ M < 133650) (133500, 133650) (by norm_num)) (by
      intro g hg
      rcases List.mem_append.mp hg with hg | hg
      · rw [((mem' _ _ g).mp hg).2]; norm_num
      · have := (b g hg).2.2.2; linarith) (by intro g hg; rw [((mem _ _ g).mp hg).2])
    have a3 := Ordered.append 137000 a2 (Ordered.ite (137000 < m ∨ M < 143000) (137000, 143000) (by norm_num)) (by
      intro g hg
      rcases List.mem_append.mp hg with hg | hg
      · rcases List.mem_append.mp hg with hg | hg
        · rw [((mem' _ _ g).mp hg).2]; norm_num
        · have := (b g hg).2.2.2; linarith
      · rw [((mem _ _ g).mp hg).2]; norm_num) (by intro g hg; rw [((mem _ _ g).mp hg).2])
    exact Ordered.append 143000 a3 (Ordered.ite (143000 < m ∨ M < 170000) (143000, 170000) (by norm_num)) (by
      intro g hg
      rcases List.mem_append.mp hg with hg | hg
      · rcases List.mem_append.mp hg with hg | hg
        · rcases List.mem_append.mp hg with hg | hg
          · rw [((mem' _ _ g).mp hg).2]; norm_num
          · have := (b g hg).2.2.2; linarith
        · rw [((mem _ _ g).mp hg).2]; norm_num
      · rw [((mem _ _ g).mp hg).2]) (by intro g hg; rw [((mem _ _ g).mp hg).2])
  · intro g hg
    simp only [List.mem_append, mem, mem'] at hg
    rcases hg with (((⟨hx, rfl⟩ | hx) | ⟨hx, rfl⟩) | ⟨hx, rfl⟩) | ⟨hx, rfl⟩
    · exact ⟨⟨m, m2, le_refl _⟩, ⟨M, M2, hx.2.le⟩⟩
    · obtain ⟨⟨r, r1, r2⟩, ⟨r', r1', r2'⟩, -⟩ := b g hx
      exact ⟨⟨r, r1, r2.le⟩, ⟨r', r1', r2'.le⟩⟩
    · exact (lohi _ _).mp hx
    · exact (lohi _ _).mp hx
    · exact (lohi _ _).mp hx
  · intro g hg
    simp only [List.mem_append, mem, mem'] at hg
    rcases hg with (((⟨hx, rfl⟩ | hx) | ⟨hx, rfl⟩) | ⟨hx, rfl⟩) | ⟨hx, rfl⟩
    · exact Or.inl ⟨m2, rfl⟩
    · right; left
      have : ∃ q ∈ ps, Within q g := by
        clear e o s b ek
        induction f with
        | nil => simp at hx
        | cons h f ih' =>
          rcases List.mem_cons.mp hx with rfl | hx
          · exact ⟨_, by simp, h⟩
          · obtain ⟨q, a, b⟩ := ih' hx; exact ⟨q, by simp [a], b⟩
      obtain ⟨q, hq, hw⟩ := this
      exact ⟨q, s.subset hq, hw⟩
    · simp
    · simp
    · simp
  · intro g hg
    rw [← lohi]
    simp only [List.mem_append, mem, mem']
    have nm : (137000 : ℚ) ≠ 133500 := by norm_num
    have ng : ∀ x, (120038 ≤ g.1) → ¬ (g ∈ gaps ∧ x) := by
      rintro x hx ⟨hy, -⟩
      obtain ⟨-, -, h3, h4⟩ := b g hy
      have := o.1 g hy
      linarith
    simp only [List.mem_cons, List.not_mem_nil, or_false] at hg
    rcases hg with rfl | rfl | rfl
    · constructor
      · rintro ((((⟨hx, hy⟩ | hx) | ⟨hx, hy⟩) | ⟨hx, hy⟩) | ⟨hx, hy⟩)
        · rw [Prod.mk.injEq] at hy; norm_num at hy
        · exact absurd ⟨hx, trivial⟩ (ng True (by norm_num))
        · exact hx
        · rw [Prod.mk.injEq] at hy; norm_num at hy
        · rw [Prod.mk.injEq] at hy; norm_num at hy
      · intro hx; exact Or.inl (Or.inl (Or.inr ⟨hx, rfl⟩))
    · constructor
      · rintro ((((⟨hx, hy⟩ | hx) | ⟨hx, hy⟩) | ⟨hx, hy⟩) | ⟨hx, hy⟩)
        · rw [Prod.mk.injEq] at hy; norm_num at hy
        · exact absurd ⟨hx, trivial⟩ (ng True (by norm_num))
        · rw [Prod.mk.injEq] at hy; norm_num at hy
        · exact hx
        · rw [Prod.mk.injEq] at hy; norm_num at hy
      · intro hx; exact Or.inl (Or.inr ⟨hx, rfl⟩)
    · constructor
      · rintro ((((⟨hx, hy⟩ | hx) | ⟨hx, hy⟩) | ⟨hx, hy⟩) | ⟨hx, hy⟩)
        · rw [Prod.mk.injEq] at hy; norm_num at hy
        · exact absurd ⟨hx, trivial⟩ (ng True (by norm_num))
        · rw [Prod.mk.injEq] at hy; norm_num at hy
        · rw [Prod.mk.injEq] at hy; norm_num at hy
        · exact hx
      · intro hx; exact Or.inr ⟨hx, rfl⟩
  · constructor
    · rintro ⟨g, hg, hy⟩
      simp only [List.mem_append, mem, mem'] at hg
      rcases hg with (((⟨hx, rfl⟩ | hx) | ⟨hx, rfl⟩) | ⟨hx, rfl⟩) | ⟨hx, rfl⟩
      · exact ⟨⟨m, m2, hx.1⟩, ⟨M, M2, hx.2⟩⟩
      · have a := o.1 g hx
        have c := (b g hx).2.2.1
        linarith
      · norm_num at hy
      · norm_num at hy
      · norm_num at hy
    · rintro ⟨⟨r, r1, r2⟩, ⟨r', r1', r2'⟩⟩
      refine ⟨(m, 72000), ?_, rfl⟩
      simp only [List.mem_append, mem, mem']
      exact Or.inl (Or.inl (Or.inl (Or.inl ⟨⟨lt_of_le_of_lt (m3 r r1) r2, lt_of_lt_of_le r2' (M3 r' r1')⟩, trivial⟩)))

example : ∃ km, getFreespaceKm (fun _ => 0) 2454467 [0, 1, 2] [70000, 100000, 145000] [90, 90, 90] = .ok km ∧ Ordered km ∧
    (137000, 143000) ∈ km ∧ (143000, 170000) ∉ km := by
  obtain ⟨km, e, o, -, -, c, -⟩ := C87_regions (fun _ => 0) (fun _ => by norm_num) 2454467 [0, 1, 2] [70000, 100000, 145000]
    [90, 90, 90] (by decide) rfl rfl
  refine ⟨km, e, o, (c _ (by decide)).mpr ⟨⟨70000, by decide, by norm_num⟩, ⟨145000, by decide, by norm_num⟩⟩, ?_⟩
  intro hx
  obtain ⟨-, r, r1, r2⟩ := (c _ (by decide)).mp hx
  simp only [List.mem_cons, List.not_mem_nil, or_false] at r1
  rcases r1 with rfl | rfl | rfl <;> norm_num at r2

end Verif.Geo
