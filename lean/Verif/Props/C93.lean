import Verif.Props.C92
import Verif.Spec.PowerNorm

/-!
# C93: samples of free space
-/
namespace Verif.Cal
open Verif.Rsr Verif.Geo Spec Verif.Geo.Spec

theorem countP_le_index {s : List ℚ} {p : ℚ → Bool} {k : Nat} (hk : ∀ i (h : i < s.length), k ≤ i → p s[i] = false) :
    s.countP p ≤ k := by
  have e : s = s.take k ++ s.drop k := (List.take_append_drop k s).symm
  rw [e, List.countP_append]
  have z : (s.drop k).countP p = 0 := by
    rw [List.countP_eq_zero]
    intro x hx
    obtain ⟨i, hi, rfl⟩ := List.getElem_of_mem hx
    rw [List.getElem_drop]
    rw [List.length_drop] at hi
    rw [hk (k + i) (by omega) (by omega)]
    simp
  have := List.countP_le_length (p := p) (l := s.take k)
  rw [List.length_take] at this
  omega

theorem countP_le_tail {s : List ℚ} {p : ℚ → Bool} {k : Nat} (hk : ∀ i (h : i < s.length), i < k → p s[i] = false) :
    s.countP p ≤ s.length - k := by
  have e : s = s.take k ++ s.drop k := (List.take_append_drop k s).symm
  conv_lhs => rw [e]
  rw [List.countP_append]
  have z : (s.take k).countP p = 0 := by
    rw [List.countP_eq_zero]
    intro x hx
    obtain ⟨i, hi, rfl⟩ := List.getElem_of_mem hx
    rw [List.getElem_take]
    rw [List.length_take] at hi
    rw [hk i (by omega) (by omega)]
    simp
  have := List.countP_le_length (p := p) (l := s.drop k)
  rw [List.length_drop] at this
  omega

theorem median_spec {l : List ℚ} (h : l ≠ []) : IsMedian l (median l) := by
  have hp := List.perm_insertionSort (· ≤ ·) l
  have hs : (l.insertionSort (· ≤ ·)).Pairwise (· ≤ ·) := List.pairwise_insertionSort (· ≤ ·) l
  have hc : ∀ p : ℚ → Bool, l.countP p = (l.insertionSort (· ≤ ·)).countP p := fun p => (hp.countP_eq p).symm
  have hlen : l.length = (l.insertionSort (· ≤ ·)).length := hp.length_eq.symm
  have hne : 0 < l.length := List.length_pos_iff.mpr h
  unfold IsMedian median
  simp only [hc, hlen]
  refine ⟨h, ?_⟩
  rw [hlen] at hne
  generalize l.insertionSort (· ≤ ·) = s at *
  have mono : ∀ i j (hi : i < s.length) (hj : j < s.length), i ≤ j → s[i] ≤ s[j] := by
    intro i j hi hj hij
    rcases Nat.lt_or_eq_of_le hij with h' | rfl
    · exact List.pairwise_iff_getElem.mp hs i j hi hj h'
    · exact le_refl _
  split
  · rename_i ho
    rw [getD_at (show s.length / 2 < s.length by omega)]
    constructor
    · have := countP_le_index (s := s) (p := fun x => decide (x < s[s.length / 2])) (k := s.length / 2) (by
        intro i hi hk
        have := mono _ _ (by omega) hi hk
        simpa using this)
      omega
    · have := countP_le_tail (s := s) (p := fun x => decide (s[s.length / 2] < x)) (k := s.length / 2 + 1) (by
        intro i hi hk
        have := mono i (s.length / 2) hi (by omega) (by omega)
        simpa using this)
      omega
  · rename_i ho
    rw [getD_at (show s.length / 2 < s.length by omega), getD_at (show s.length / 2 - 1 < s.length by omega)]
    have hm := mono (s.length / 2 - 1) (s.length / 2) (by omega) (by omega) (by omega)
    constructor
    · have := countP_le_index (s := s) (p := fun x => decide (x < (s[s.length / 2 - 1] + s[s.length / 2]) / 2)) (k := s.length / 2) (by
        intro i hi hk
        have := mono _ _ (by omega) hi hk
        simp only [decide_eq_false_iff_not, not_lt]
        linarith)
      omega
    · have := countP_le_tail (s := s) (p := fun x => decide ((s[s.length / 2 - 1] + s[s.length / 2]) / 2 < x)) (k := s.length / 2) (by
        intro i hi hk
        have := mono i (s.length / 2 - 1) hi (by omega) (by omega)
        simp only [decide_eq_false_iff_not, not_lt]
        linarith)
      omega

theorem drop_loop (med : ℚ × ℚ → Option ℚ) : ∀ (s p : List (ℚ × ℚ)) (m : List (Option ℚ)),
    (∀ g ∈ p, badMedian (med g) = false) →
    s.foldl (fun s g => if badMedian (med g) then (s.1.erase g, s.2) else (s.1, s.2 ++ [med g])) (p ++ s, m) =
      (p ++ s.filter (fun g => !badMedian (med g)), m ++ (s.filter (fun g => !badMedian (med g))).map med) := by
  intro s
  induction s with
  | nil => intro p m _; simp
  | cons g s ih =>
    intro p m hp
    rw [List.foldl_cons]
    by_cases hb : badMedian (med g) = true
    · have hg : g ∉ p := fun hm => by rw [hp g hm] at hb; exact absurd hb (by simp)
      simp only [hb, if_true]
      rw [List.erase_append_right _ hg, List.erase_cons_head, ih p m hp]
      simp [hb]
    · have hb' : badMedian (med g) = false := by simpa using hb
      simp only [hb', Bool.false_eq_true, if_false]
      have : p ++ g :: s = (p ++ [g]) ++ s := by simp
      rw [this, ih (p ++ [g]) (m ++ [med g]) (by
        intro x hx
        rcases List.mem_append.mp hx with h | h
        · exact hp x h
        · rw [List.mem_singleton.mp h]; exact hb')]
      simp [hb']

theorem dropGaps_eq (med : ℚ × ℚ → Option ℚ) (gaps : List (ℚ × ℚ)) :
    dropGaps med gaps = (gaps.filter (fun g => !badMedian (med g)), (gaps.filter (fun g => !badMedian (med g))).map med) := by
  have := drop_loop med gaps [] [] (by simp)
  simpa [dropGaps] using this

theorem medianIn_map (spm pc : List ℚ) (top : ℚ) (g : ℚ × ℚ) :
    medianIn spm (pc.map (· / top)) g =
      if during spm pc g.1 g.2 = [] then none else some (median ((during spm pc g.1 g.2).map (· / top))) := by
  have e : ((spm.zip (pc.map (· / top))).filter fun x => g.1 ≤ x.1 ∧ x.1 ≤ g.2).map (·.2) =
      (during spm pc g.1 g.2).map (· / top) := by
    unfold during
    rw [List.zip_map_right, List.filter_map, List.map_map, List.map_map]
    rfl
  unfold medianIn
  rw [e]
  cases h : during spm pc g.1 g.2 with
  | nil => simp
  | cons a l => simp

theorem mem_zip_self {α β : Type} (f : α → β) : ∀ (l : List α) (y : α × β), y ∈ l.zip (l.map f) ↔ y.1 ∈ l ∧ y.2 = f y.1 := by
  intro l
  induction l with
  | nil => simp
  | cons a l ih =>
    rintro ⟨y1, y2⟩
    rw [List.map_cons, List.zip_cons_cons, List.mem_cons, ih, List.mem_cons]
    constructor
    · rintro (h | h)
      · obtain ⟨rfl, rfl⟩ := Prod.mk.inj h
        exact ⟨.inl rfl, rfl⟩
      · exact ⟨.inr h.1, h.2⟩
    · rintro ⟨rfl | h, h'⟩
      · left; rw [← h']
      · exact .inr ⟨h, h'⟩

theorem pyMaxL_peak {l : List ℚ} {x : ℚ} (h : pyMaxL l = .ok x) : x ∈ l ∧ ∀ y ∈ l, y ≤ x := by
  by_cases hl : l = []
  · subst hl
    cases h
  · obtain ⟨m, h1, h2, h3⟩ := pyMaxL_spec l hl
    rw [h1] at h
    cases h
    exact ⟨h2, h3⟩

theorem createMask_ok {spm pc : List ℚ} {gaps : List (ℚ × ℚ)} {order : Nat} {r : Masked}
    (h : createMask spm gaps pc order = .ok r) :
    ∃ top, pcMax spm pc gaps = .ok top ∧ top ≠ 0 ∧
      r.gaps = gaps.filter (fun g => !badMedian (medianIn spm (pc.map (· / top)) g)) ∧
      r.order = (if r.gaps.length ≤ 5 then 1 else order) ∧
      r.mask = (spm.zip (pc.map (· / top))).map fun x =>
        ((gaps.filter fun g => !badMedian (medianIn spm (pc.map (· / top)) g)).zip
          ((gaps.filter fun g => !badMedian (medianIn spm (pc.map (· / top)) g)).map (medianIn spm (pc.map (· / top))))).any fun y =>
          decide (y.1.1 ≤ x.1 ∧ x.1 ≤ y.1.2) && match y.2 with
            | none => false
            | some m => decide (m - 1 / 10 < x.2 ∧ x.2 < m + 1 / 10) := by
  unfold createMask at h
  cases ht : pcMax spm pc gaps with
  | error e => rw [ht] at h; cases h
  | ok top =>
    rw [ht] at h
    simp only [bind, Except.bind] at h
    by_cases h0 : top = 0
    · rw [if_pos h0] at h; cases h
    · rw [if_neg h0] at h
      simp only [dropGaps_eq, pure, Except.pure, Except.ok.injEq] at h
      subst h
      exact ⟨top, rfl, h0, rfl, rfl, rfl⟩

theorem badMedian_some (m : ℚ) : badMedian (some m) = false ↔ 1 / 2 ≤ m ∧ m ≤ 5 / 4 := by
  unfold badMedian
  simp only [decide_eq_false_iff_not, not_or, not_lt]

theorem mem_during {t p : List ℚ} (hl : t.length = p.length) {i : Nat} (hi : i < t.length) {a b : ℚ} (h1 : a ≤ t.getD i 0)
    (h2 : t.getD i 0 ≤ b) : p.getD i 0 ∈ during t p a b := by
  unfold during
  refine List.mem_map.mpr ⟨(t.getD i 0, p.getD i 0), List.mem_filter.mpr ⟨?_, decide_eq_true ⟨h1, h2⟩⟩, rfl⟩
  rw [getD_at hi, getD_at (hl ▸ hi)]
  rw [List.mem_iff_getElem]
  exact ⟨i, by simp; omega, by simp⟩

/-- The mask marks samples of free space, and all of them; a region is used unless the median of its powers is out of range. -/
theorem C93_mask {spm pc : List ℚ} {gaps : List (ℚ × ℚ)} {order : Nat} {r : Masked} (hl : spm.length = pc.length)
    (h : createMask spm gaps pc order = .ok r) :
    ∃ top : ℚ, top ≠ 0 ∧
      (4 ≤ gaps.length → Peak spm pc (gaps.getD 1 (0, 0)).2 (gaps.getD (gaps.length - 2) (0, 0)).1 top) ∧
      (∀ a b, (gaps = [a, b] ∨ ∃ c, gaps = [a, c, b]) → a.2 ≠ b.1 → Peak spm pc a.2 b.1 top) ∧
      (∀ a b, (gaps = [a, b] ∨ ∃ c, gaps = [a, c, b]) → a.2 = b.1 → Peak spm pc a.1 b.2 top) ∧
      (∀ a, gaps = [a] → top ∈ during spm pc a.1 a.2 ∧ ∀ i, i < spm.length → a.1 < spm.getD i 0 → spm.getD i 0 ≤ a.2 → pc.getD i 0 ≤ top) ∧
      r.order = (if 5 < r.gaps.length then order else 1) ∧
      r.mask.length = spm.length ∧
      (∀ i, i < spm.length → r.mask.getD i false = true → ∃ m, FreeSample spm pc gaps top (spm.getD i 0) (pc.getD i 0) m) ∧
      (∀ i, i < spm.length → (∃ g ∈ gaps, g.1 ≤ spm.getD i 0 ∧ spm.getD i 0 ≤ g.2 ∧
        ∀ m, IsMedian ((during spm pc g.1 g.2).map (· / top)) m → 1 / 2 ≤ m ∧ m ≤ 5 / 4 ∧ |pc.getD i 0 / top - m| < 1 / 10) →
        r.mask.getD i false = true) ∧
      (∀ g ∈ r.gaps, g ∈ gaps ∧
        (during spm pc g.1 g.2 ≠ [] → ∃ m, IsMedian ((during spm pc g.1 g.2).map (· / top)) m ∧ 1 / 2 ≤ m ∧ m ≤ 5 / 4)) ∧
      ∀ g ∈ gaps, (∀ m, IsMedian ((during spm pc g.1 g.2).map (· / top)) m → 1 / 2 ≤ m ∧ m ≤ 5 / 4) → g ∈ r.gaps := by
  obtain ⟨top, h1, h0, h2, h4, h3⟩ := createMask_ok h
  have good : ∀ g, (∀ m, IsMedian ((during spm pc g.1 g.2).map (· / top)) m → 1 / 2 ≤ m ∧ m ≤ 5 / 4) →
      badMedian (medianIn spm (pc.map (· / top)) g) = false := by
    intro g hg
    rw [medianIn_map]
    split
    · rfl
    · rename_i hne
      rw [badMedian_some]
      exact hg _ (median_spec (by simpa using hne))
  have bad : ∀ g, during spm pc g.1 g.2 ≠ [] → badMedian (medianIn spm (pc.map (· / top)) g) = false →
      medianIn spm (pc.map (· / top)) g = some (median ((during spm pc g.1 g.2).map (· / top))) ∧
      IsMedian ((during spm pc g.1 g.2).map (· / top)) (median ((during spm pc g.1 g.2).map (· / top))) ∧
      1 / 2 ≤ median ((during spm pc g.1 g.2).map (· / top)) ∧ median ((during spm pc g.1 g.2).map (· / top)) ≤ 5 / 4 := by
    intro g hne hg
    rw [medianIn_map, if_neg hne] at hg ⊢
    rw [badMedian_some] at hg
    exact ⟨rfl, median_spec (by simpa using hne), hg⟩
  have hat : ∀ i, i < spm.length → (r.mask.getD i false = true ↔
      ∃ g ∈ gaps, badMedian (medianIn spm (pc.map (· / top)) g) = false ∧ g.1 ≤ spm.getD i 0 ∧ spm.getD i 0 ≤ g.2 ∧
        |pc.getD i 0 / top - median ((during spm pc g.1 g.2).map (· / top))| < 1 / 10) := by
    intro i hi
    have e : r.mask.getD i false = (((gaps.filter fun g => !badMedian (medianIn spm (pc.map (· / top)) g)).zip
          ((gaps.filter fun g => !badMedian (medianIn spm (pc.map (· / top)) g)).map (medianIn spm (pc.map (· / top))))).any fun y =>
          decide (y.1.1 ≤ spm.getD i 0 ∧ spm.getD i 0 ≤ y.1.2) && match y.2 with
            | none => false
            | some m => decide (m - 1 / 10 < pc.getD i 0 / top ∧ pc.getD i 0 / top < m + 1 / 10)) := by
      rw [h3, List.getD_eq_getElem?_getD, List.getElem?_eq_getElem (by simp; omega)]
      rw [getD_at hi, getD_at (hl ▸ hi)]
      simp only [Option.getD_some, List.getElem_map, List.getElem_zip]
    rw [e, List.any_eq_true]
    constructor
    · rintro ⟨y, hy, hy'⟩
      rw [mem_zip_self, List.mem_filter] at hy
      obtain ⟨⟨y1, y2⟩, y3⟩ := hy
      rw [Bool.and_eq_true, decide_eq_true_eq, y3] at hy'
      obtain ⟨z1, z2⟩ := hy'
      have hne : during spm pc y.1.1 y.1.2 ≠ [] := List.ne_nil_of_mem (mem_during hl hi z1.1 z1.2)
      have y2' : badMedian (medianIn spm (pc.map (· / top)) y.1) = false := by simpa using y2
      rw [(bad y.1 hne y2').1] at z2
      refine ⟨y.1, y1, y2', z1.1, z1.2, ?_⟩
      simp only [decide_eq_true_eq] at z2
      rw [abs_lt]
      constructor <;> linarith [z2.1, z2.2]
    · rintro ⟨g, g1, g2, g3, g4, g5⟩
      have hne : during spm pc g.1 g.2 ≠ [] := List.ne_nil_of_mem (mem_during hl hi g3 g4)
      refine ⟨(g, medianIn spm (pc.map (· / top)) g), ?_, ?_⟩
      · rw [mem_zip_self, List.mem_filter]
        exact ⟨⟨g1, by simp [g2]⟩, rfl⟩
      · rw [(bad g hne g2).1, Bool.and_eq_true, decide_eq_true_eq]
        refine ⟨⟨g3, g4⟩, ?_⟩
        rw [abs_lt] at g5
        simp only [decide_eq_true_eq]
        constructor <;> linarith [g5.1, g5.2]
  refine ⟨top, h0, ?_, ?_, ?_, ?_, ?_, ?_, ?_, ?_, ?_, ?_⟩
  · intro h4
    unfold pcMax at h1
    simp only at h1
    rw [if_neg (by omega), if_neg (by omega), if_neg (by omega)] at h1
    exact pyMaxL_peak h1
  · rintro a b (rfl | ⟨c, rfl⟩) hab
    · simp only [pcMax, List.length_cons, List.length_nil, List.getD_cons_zero, List.getD_cons_succ, Nat.reduceAdd, Nat.reduceSub,
        true_or, if_true, if_neg hab] at h1
      exact pyMaxL_peak h1
    · simp only [pcMax, List.length_cons, List.length_nil, List.getD_cons_zero, List.getD_cons_succ, Nat.reduceAdd, Nat.reduceSub,
        or_true, if_true, if_neg hab] at h1
      exact pyMaxL_peak h1
  · rintro a b (rfl | ⟨c, rfl⟩) hab
    · simp only [pcMax, List.length_cons, List.length_nil, List.getD_cons_zero, List.getD_cons_succ, Nat.reduceAdd, Nat.reduceSub,
        true_or, if_true, if_pos hab] at h1
      exact pyMaxL_peak h1
    · simp only [pcMax, List.length_cons, List.length_nil, List.getD_cons_zero, List.getD_cons_succ, Nat.reduceAdd, Nat.reduceSub,
        or_true, if_true, if_pos hab] at h1
      exact pyMaxL_peak h1
  · rintro a rfl
    have h1' : pyMaxL (((spm.zip pc).filter fun x => a.1 < x.1 ∧ x.1 ≤ a.2).map (·.2)) = .ok top := h1
    obtain ⟨p1, p2⟩ := pyMaxL_peak h1'
    constructor
    · obtain ⟨x, x1, x2⟩ := List.mem_map.mp p1
      rw [List.mem_filter, decide_eq_true_eq] at x1
      exact List.mem_map.mpr ⟨x, List.mem_filter.mpr ⟨x1.1, decide_eq_true ⟨x1.2.1.le, x1.2.2⟩⟩, x2⟩
    · intro i hi u1 u2
      refine p2 _ (List.mem_map.mpr ⟨(spm.getD i 0, pc.getD i 0), List.mem_filter.mpr ⟨?_, decide_eq_true ⟨u1, u2⟩⟩, rfl⟩)
      rw [getD_at hi, getD_at (hl ▸ hi), List.mem_iff_getElem]
      exact ⟨i, by simp; omega, by simp⟩
  · rw [h4]
    split <;> split <;> first | rfl | omega
  · rw [h3]; simp [hl]
  · intro i hi hm
    obtain ⟨g, g1, g2, g3, g4, g5⟩ := (hat i hi).mp hm
    have hne : during spm pc g.1 g.2 ≠ [] := List.ne_nil_of_mem (mem_during hl hi g3 g4)
    obtain ⟨b1, b2, b3, b4⟩ := bad g hne g2
    exact ⟨_, g, g1, b2, b3, b4, g3, g4, g5⟩
  · rintro i hi ⟨g, g1, g3, g4, g5⟩
    have hne : during spm pc g.1 g.2 ≠ [] := List.ne_nil_of_mem (mem_during hl hi g3 g4)
    exact (hat i hi).mpr ⟨g, g1, good g (fun m hm => ⟨(g5 m hm).1, (g5 m hm).2.1⟩), g3, g4,
      (g5 _ (median_spec (by simpa using hne))).2.2⟩
  · intro g hg
    rw [h2, List.mem_filter] at hg
    refine ⟨hg.1, fun hne => ?_⟩
    obtain ⟨b1, b2, b3, b4⟩ := bad g hne (by simpa using hg.2)
    exact ⟨_, b2, b3, b4⟩
  · intro g hg hm
    rw [h2, List.mem_filter]
    exact ⟨hg, by simp [good g hm]⟩

/-- Times 0, 1, 2, ... -/
def seconds : List ℚ := (List.range 14).map fun i : Nat => (i : ℚ)

/-- Powers with a dim first gap, a spike, and free space with noise. -/
def powers : List ℚ := [1, 1, 1 / 5, 1 / 5, 8 / 5, 1 / 10, 1, 5 / 4, 0, 0, 1, 1, 1, 1]

/-- Five regions. -/
def fiveGaps : List (ℚ × ℚ) := [(0, 1), (2, 3), (6, 7), (10, 11), (12, 13)]

/-- The list of regions of the geometry is changed, and so the second calibration with the same geometry uses other samples than the
first. -/
theorem C93_shared_false : ∃ (spm pc : List ℚ) (gaps : List (ℚ × ℚ)) (r r' : Masked), spm.length = pc.length ∧
    createMask spm gaps pc 3 = .ok r ∧ r.gaps ≠ gaps ∧ createMask spm r.gaps pc 3 = .ok r' ∧ r'.mask ≠ r.mask := by
  refine ⟨seconds, powers, fiveGaps, ⟨[true, true, false, false, false, false, true, true, false, false, true, true, true, true],
    [(0, 1), (6, 7), (10, 11), (12, 13)], 1⟩, ⟨[true, true, false, false, false, false, false, false, false, false, true, true, true, true],
    [(0, 1), (6, 7), (10, 11), (12, 13)], 1⟩, ?_⟩
  decide +kernel

example : seconds.length = powers.length ∧ 4 ≤ fiveGaps.length ∧ createMask seconds fiveGaps powers 3 =
    .ok ⟨[true, true, false, false, false, false, true, true, false, false, true, true, true, true],
      [(0, 1), (6, 7), (10, 11), (12, 13)], 1⟩ := by
  decide +kernel

end Verif.Cal
