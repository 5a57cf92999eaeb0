import Verif.Props.C82

/-!
# C83: the direction of the profile
-/
namespace Verif.Geo
open Verif.Rsr Spec

theorem steps_of_pairwise {r : ℚ → ℚ → Prop} {l : List ℚ} (h : l.Pairwise r) (i j : Nat) (hij : i < j) (hj : j < l.length) :
    r (l.getD i 0) (l.getD j 0) := by
  rw [List.pairwise_iff_getElem] at h
  have := h i j (by omega) hj hij
  simp only [List.getD_eq_getElem?_getD]
  rw [List.getElem?_eq_getElem hj, List.getElem?_eq_getElem (by omega)]
  exact this

/-- **C83** For all radii that only fall, or only grow, that is the direction found, and nothing is removed. -/
theorem C83_monotone (g : Geom) (h2 : 2 ≤ g.rho.length) :
    (Falling g.rho → getProfileDir g = .ok (.ingress, g)) ∧ (Growing g.rho → getProfileDir g = .ok (.egress, g)) := by
  unfold getProfileDir
  rw [if_neg (by omega)]
  constructor
  · intro h
    have a := steps_of_pairwise h 0 1 (by omega) (by omega)
    have b := steps_of_pairwise h (g.rho.length - 2) (g.rho.length - 1) (by omega) (by omega)
    simp only at a b ⊢
    rw [if_pos ⟨by linarith, by linarith⟩]
  · intro h
    have a := steps_of_pairwise h 0 1 (by omega) (by omega)
    have b := steps_of_pairwise h (g.rho.length - 2) (g.rho.length - 1) (by omega) (by omega)
    simp only at a b ⊢
    rw [if_neg (by rintro ⟨x, -⟩; linarith), if_pos ⟨by linarith, by linarith⟩]

example : getProfileDir ⟨[10, 8, 5], [-2, -5/2, -3], [0, 1, 2], [], []⟩ = .ok (.ingress, ⟨[10, 8, 5], [-2, -5/2, -3], [0, 1, 2], [], []⟩) :=
  (C83_monotone ⟨[10, 8, 5], [-2, -5/2, -3], [0, 1, 2], [], []⟩ (by decide)).1 (by unfold Falling; decide +kernel)

theorem foldl_min {x : ℚ} {xs : List ℚ} (h : ∀ y ∈ xs, x ≤ y) : xs.foldl min x = x := by
  induction xs with
  | nil => rfl
  | cons y ys ih =>
    rw [List.foldl_cons, min_eq_left (h y List.mem_cons_self)]
    exact ih (fun z hz => h z (List.mem_cons_of_mem _ hz))

theorem foldl_max {xs : List ℚ} : ∀ {x : ℚ}, (x :: xs).Pairwise (· < ·) → xs.foldl max x = (x :: xs).getLastD 0 := by
  induction xs with
  | nil => intro x _; rfl
  | cons y ys ih =>
    intro x h
    rw [List.pairwise_cons] at h
    rw [List.foldl_cons, max_eq_right (h.1 y List.mem_cons_self).le, ih h.2]
    rfl

theorem min_growing {l : List ℚ} (h : Growing l) (h0 : 0 < l.length) : pyMinL l = .ok (l.getD 0 0) := by
  match l, h0 with
  | x :: xs, _ =>
    rw [Growing, List.pairwise_cons] at h
    show Except.ok (xs.foldl min x) = _
    rw [foldl_min (fun y hy => (h.1 y hy).le)]
    rfl

theorem getLastD_getD (l : List ℚ) : l.getLastD 0 = l.getD (l.length - 1) 0 := by
  rw [List.getLastD_eq_getLast?, List.getD_eq_getElem?_getD, List.getLast?_eq_getElem?]

theorem max_growing {l : List ℚ} (h : Growing l) (h0 : 0 < l.length) : pyMaxL l = .ok (l.getD (l.length - 1) 0) := by
  match l, h0 with
  | x :: xs, _ =>
    show Except.ok (xs.foldl max x) = _
    rw [foldl_max h, getLastD_getD]

theorem first_growing {l : List ℚ} (h : Growing l) (i : Nat) (hi : i < l.length) :
    firstIndex (fun t => decide (t = l.getD i 0)) l = .ok i := by
  have : l.findIdx? (fun t => decide (t = l.getD i 0)) = some i := by
    rw [List.findIdx?_eq_some_iff_getElem]
    refine ⟨hi, ?_, ?_⟩
    · simp [List.getD_eq_getElem?_getD, List.getElem?_eq_getElem hi]
    · intro j hj
      have := steps_of_pairwise h j i hj hi
      simp only [List.getD_eq_getElem?_getD] at this ⊢
      rw [List.getElem?_eq_getElem hi, List.getElem?_eq_getElem (by omega)] at this
      rw [List.getElem?_eq_getElem hi]
      simp only [Option.getD_some] at this ⊢
      simp [this.ne]
  unfold firstIndex
  rw [this]

/-- All arrays have one value per time; the blocked times are those with indices from `a` to `b`, but not all. -/
structure Blocked (g : Geom) (a b : Nat) : Prop where
  rho : g.rho.length = g.spm.length
  rhoDot : g.rhoDot.length = g.spm.length
  cols : ∀ c ∈ g.cols, c.length = g.spm.length
  growing : Growing g.spm
  order : a ≤ b ∧ b < g.spm.length
  some : 0 < a ∨ b + 1 < g.spm.length
  atmos : g.atmos = (g.spm.take (b + 1)).drop a

/-- What remains of an array without the rows from `a` to `b`. -/
def without (a b : Nat) (l : List ℚ) : List ℚ := l.take a ++ l.drop (b + 1)

theorem delete_ok {n a b : Nat} {l : List ℚ} (hl : l.length = n) (hab : a ≤ b) (hb : b < n) :
    deleteRows n a (b + 1) l = .ok (without a b l) := by
  unfold deleteRows npDelete without
  rw [if_pos hl, if_neg (by omega), max_eq_right (by omega)]

theorem mapM_ok {f : List ℚ → Py (List ℚ)} {h : List ℚ → List ℚ} : ∀ (l : List (List ℚ)), (∀ c ∈ l, f c = .ok (h c)) →
    l.mapM f = .ok (l.map h) := by
  intro l
  induction l with
  | nil => intro _; rfl
  | cons c cs ih =>
    intro hc
    rw [List.mapM_cons, hc c List.mem_cons_self, ih (fun d hd => hc d (List.mem_cons_of_mem _ hd))]
    rfl

theorem removeAtmos_ok {g : Geom} {a b : Nat} (h : Blocked g a b) :
    removeAtmos g = .ok ⟨without a b g.rho, without a b g.rhoDot, without a b g.spm, g.atmos, g.cols.map (without a b)⟩ := by
  obtain ⟨h1, h2, h3, h4, ⟨h5, h6⟩, h7, h8⟩ := h
  have len : g.atmos.length = b + 1 - a := by rw [h8]; simp; omega
  have gr : Growing g.atmos := by
    rw [h8]
    exact (h4.sublist (List.take_sublist _ _)).sublist (List.drop_sublist _ _)
  have get : ∀ i, i < b + 1 - a → g.atmos.getD i 0 = g.spm.getD (a + i) 0 := by
    intro i hi
    rw [h8, getD_drop, getD_take (by omega)]
  unfold removeAtmos
  rw [min_growing gr (by omega), get 0 (by omega), max_growing gr (by omega), len, get _ (by omega), add_zero]
  have e : a + (b + 1 - a - 1) = b := by omega
  rw [e]
  simp only [bind, Except.bind]
  rw [first_growing h4 a (by omega), first_growing h4 b h6]
  simp only
  rw [if_neg (by omega)]
  unfold Geom.deleteRows
  rw [delete_ok h1 h5 h6, delete_ok h2 h5 h6, delete_ok rfl h5 h6, mapM_ok (h := without a b) _ (fun c hc => delete_ok (h3 c hc) h5 h6)]
  have : deleteRows g.spm.length a (b + 1) g.atmos = .ok g.atmos := by
    unfold deleteRows
    rw [if_neg (by omega)]
  rw [this]
  rfl

theorem filter_all_iff (l : List ℚ) (p : ℚ → Bool) : (l.filter p).length = l.length ↔ ∀ x ∈ l, p x = true := by
  rw [← List.countP_eq_length_filter, List.countP_eq_length]

theorem mem_blocked {g : Geom} {a b : Nat} (h : Blocked g a b) (i : Nat) (hi : i < g.spm.length) :
    g.spm.getD i 0 ∈ g.atmos ↔ a ≤ i ∧ i ≤ b := by
  have hb := h.order.2
  have get : ∀ j (hj : j < g.spm.length), g.spm.getD j 0 = g.spm[j] := by
    intro j hj
    rw [List.getD_eq_getElem?_getD, List.getElem?_eq_getElem hj]; rfl
  have inj : ∀ j, j < g.spm.length → g.spm.getD i 0 = g.spm.getD j 0 → i = j := by
    intro j hj e
    rcases lt_trichotomy i j with k | k | k
    · have := steps_of_pairwise h.growing i j k hj; linarith
    · exact k
    · have := steps_of_pairwise h.growing j i k hi; linarith
  rw [h.atmos, List.mem_iff_getElem]
  constructor
  · rintro ⟨j, hj, e⟩
    rw [List.length_drop, List.length_take] at hj
    rw [List.getElem_drop, List.getElem_take, ← get _ (by omega)] at e
    have := inj (a + j) (by omega) e.symm
    omega
  · rintro ⟨h1, h2⟩
    refine ⟨i - a, by simp; omega, ?_⟩
    rw [List.getElem_drop, List.getElem_take, get i hi]
    congr 1; omega

theorem part_mem {l : List ℚ} {k : Nat} {x : ℚ} (h : x ∈ l.take k) : ∃ i, i < k ∧ i < l.length ∧ x = l.getD i 0 := by
  rw [List.mem_iff_getElem] at h
  obtain ⟨i, hi, e⟩ := h
  rw [List.length_take] at hi
  rw [List.getElem_take] at e
  refine ⟨i, by omega, by omega, ?_⟩
  rw [List.getD_eq_getElem?_getD, List.getElem?_eq_getElem (by omega), ← e]; rfl

theorem part_mem' {l : List ℚ} {k : Nat} {x : ℚ} (h : x ∈ l.drop k) : ∃ i, k ≤ i ∧ i < l.length ∧ x = l.getD i 0 := by
  rw [List.mem_iff_getElem] at h
  obtain ⟨i, hi, e⟩ := h
  rw [List.length_drop] at hi
  rw [List.getElem_drop] at e
  refine ⟨k + i, by omega, by omega, ?_⟩
  rw [List.getD_eq_getElem?_getD, List.getElem?_eq_getElem (by omega), ← e]; rfl

theorem getD_mem_take {l : List ℚ} {k i : Nat} (h : i < k) (h' : i < l.length) : l.getD i 0 ∈ l.take k := by
  rw [List.mem_iff_getElem]
  refine ⟨i, by simp; omega, ?_⟩
  rw [List.getElem_take, List.getD_eq_getElem?_getD, List.getElem?_eq_getElem h']; rfl

theorem getD_mem_drop {l : List ℚ} {k i : Nat} (h : k ≤ i) (h' : i < l.length) : l.getD i 0 ∈ l.drop k := by
  rw [List.mem_iff_getElem]
  refine ⟨i - k, by simp; omega, ?_⟩
  rw [List.getElem_drop, List.getD_eq_getElem?_getD, List.getElem?_eq_getElem h']
  have : k + (i - k) = i := by omega
  simp [this]

/-- The chord goes to `verifyAtmos`. -/
theorem chord_verify {g : Geom} {m : Nat} {dt : ℚ} (c : Chord g.rho m) (hdt : 0 < dt) (hv : g.rhoDot = gradient g.rho dt)
    (h : g.rho.getD (m - 1) 0 < g.rho.getD (m + 1) 0) (hr : ∀ r ∈ g.rho, r ≤ 170000) :
    getProfileDir g = verifyAtmos g (m + 1) := by
  obtain ⟨h1, h2⟩ := c.inside
  obtain ⟨k, e, rfl, -⟩ := C82_split_partial g.rho m dt c hdt h
  unfold getProfileDir
  have a := c.falls 0 (by omega)
  have b := c.grows (g.rho.length - 2) (by omega) (by omega)
  have e2 : g.rho.length - 2 + 1 = g.rho.length - 1 := by omega
  rw [e2] at b
  rw [zero_add] at a
  rw [if_neg (by omega)]
  simp only
  rw [if_neg (by rintro ⟨-, x⟩; linarith), if_neg (by rintro ⟨x, -⟩; linarith)]
  unfold verifyChord
  rw [hv, e]
  simp only
  rw [List.getElem?_eq_getElem h2]
  simp only
  rw [if_neg (not_lt.mpr (hr _ (List.getElem_mem h2)))]

/-- What `verifyAtmos` does with a chord that is split at the right place. -/
theorem verifyAtmos_chord (g : Geom) (m a b : Nat) (c : Chord g.rho m) (hb : Blocked g a b) :
    (a = 0 ∧ m ≤ b → Growing (without a b g.rho) ∧ verifyAtmos g (m + 1) =
      .ok (.egress, ⟨without a b g.rho, without a b g.rhoDot, without a b g.spm, g.atmos, g.cols.map (without a b)⟩)) ∧
    (0 < a ∧ a ≤ m + 1 ∧ b + 1 = g.spm.length → Falling (without a b g.rho) ∧ verifyAtmos g (m + 1) =
      .ok (.ingress, ⟨without a b g.rho, without a b g.rhoDot, without a b g.spm, g.atmos, g.cols.map (without a b)⟩)) ∧
    ((0 < a ∨ b < m) ∧ (m + 1 < a ∨ b + 1 < g.spm.length) → verifyAtmos g (m + 1) = .ok (.both, g)) := by
  obtain ⟨h1, h2⟩ := c.inside
  have hl := hb.rho
  obtain ⟨o1, o2⟩ := hb.order
  obtain ⟨p1, p2⟩ := chord_parts c
  have hin : ((g.spm.take (m + 1)).filter fun x => decide (x ∈ g.atmos)).length = (g.spm.take (m + 1)).length ↔ a = 0 ∧ m ≤ b := by
    rw [filter_all_iff]
    constructor
    · intro hall
      have x := hall _ (getD_mem_take (i := 0) (by omega) (by omega))
      have y := hall _ (getD_mem_take (i := m) (by omega) (by omega))
      rw [decide_eq_true_eq, mem_blocked hb _ (by omega)] at x y
      omega
    · rintro ⟨x, y⟩ t ht
      obtain ⟨i, i1, i2, rfl⟩ := part_mem ht
      rw [decide_eq_true_eq, mem_blocked hb _ i2]
      omega
  have hout : ((g.spm.drop (m + 1)).filter fun x => decide (x ∈ g.atmos)).length = (g.spm.drop (m + 1)).length ↔
      a ≤ m + 1 ∧ b + 1 = g.spm.length := by
    rw [filter_all_iff]
    constructor
    · intro hall
      have x := hall _ (getD_mem_drop (i := m + 1) (le_refl _) (by omega))
      have y := hall _ (getD_mem_drop (i := g.spm.length - 1) (by omega) (by omega))
      rw [decide_eq_true_eq, mem_blocked hb _ (by omega)] at x y
      omega
    · rintro ⟨x, y⟩ t ht
      obtain ⟨i, i1, i2, rfl⟩ := part_mem' ht
      rw [decide_eq_true_eq, mem_blocked hb _ i2]
      omega
  unfold verifyAtmos
  simp only
  refine ⟨fun k => ⟨?_, ?_⟩, fun k => ⟨?_, ?_⟩, fun k => ?_⟩
  · obtain ⟨rfl, k⟩ := k
    unfold without
    rw [List.take_zero, List.nil_append]
    have : g.rho.drop (b + 1) = (g.rho.drop (m + 1)).drop (b - m) := by
      rw [List.drop_drop]; congr 1; omega
    rw [this]
    exact p2.sublist (List.drop_sublist _ _)
  · rw [if_pos (hin.mpr k), removeAtmos_ok hb]
    rfl
  · unfold without
    rw [List.drop_eq_nil_of_le (by omega), List.append_nil]
    have : g.rho.take a = (g.rho.take (m + 1)).take a := by
      rw [List.take_take, min_eq_left (by omega)]
    rw [this]
    exact p1.sublist (List.take_sublist _ _)
  · rw [if_neg (by rw [hin]; omega), if_pos (hout.mpr ⟨k.2.1, k.2.2⟩), removeAtmos_ok hb]
    rfl
  · rw [if_neg (by rw [hin]; omega), if_neg (by rw [hout]; omega)]
    rfl

/-- **C83** (partial) For every chord occultation that is split at the right place (see C82) and inside 170000 km, with one
interval of blocked times: if all of the ingress but not all of the egress is blocked, or the other way round, exactly the
blocked rows are removed from all arrays, and the direction is that of what remains; if some of both is free, nothing is
removed and the direction is `both`.  Missing: see the four theorems below. -/
theorem C83_chord_partial (g : Geom) (m a b : Nat) (dt : ℚ) (c : Chord g.rho m) (hdt : 0 < dt) (hv : g.rhoDot = gradient g.rho dt)
    (h : g.rho.getD (m - 1) 0 < g.rho.getD (m + 1) 0) (hr : ∀ r ∈ g.rho, r ≤ 170000) (hb : Blocked g a b) :
    (a = 0 ∧ m ≤ b → Growing (without a b g.rho) ∧ getProfileDir g =
      .ok (.egress, ⟨without a b g.rho, without a b g.rhoDot, without a b g.spm, g.atmos, g.cols.map (without a b)⟩)) ∧
    (0 < a ∧ a ≤ m + 1 ∧ b + 1 = g.spm.length → Falling (without a b g.rho) ∧ getProfileDir g =
      .ok (.ingress, ⟨without a b g.rho, without a b g.rhoDot, without a b g.spm, g.atmos, g.cols.map (without a b)⟩)) ∧
    ((0 < a ∨ b < m) ∧ (m + 1 < a ∨ b + 1 < g.spm.length) → getProfileDir g = .ok (.both, g)) := by
  rw [chord_verify c hdt hv h hr]
  exact verifyAtmos_chord g m a b c hb

/-- The chord of C82, ingress blocked. -/
example : getProfileDir ⟨[10, 5, 2, 6, 9], gradient [10, 5, 2, 6, 9] 1, [0, 1, 2, 3, 4], [0, 1, 2], [[7, 8, 9, 10, 11]]⟩ =
    .ok (.egress, ⟨[6, 9], [7 / 2, 3], [3, 4], [0, 1, 2], [[10, 11]]⟩) := by
  have b : Blocked ⟨[10, 5, 2, 6, 9], gradient [10, 5, 2, 6, 9] 1, [0, 1, 2, 3, 4], [0, 1, 2], [[7, 8, 9, 10, 11]]⟩ 0 2 :=
    { rho := rfl, rhoDot := rfl, cols := by decide, growing := by unfold Growing; decide +kernel, order := by decide,
      some := by decide, atmos := rfl }
  rw [((C83_chord_partial _ 2 0 2 1 chord_demo one_pos rfl (by decide +kernel) (by decide +kernel) b).1 (by decide)).2]
  decide +kernel

/-- **C83** is false beyond the rings: for all radii that turn around after passing 170000 km and stay beyond, the removal of
that part fails, with whatever other arrays. -/
theorem C83_beyond_false (g : Geom) (k : Nat) (hk : getChordInd g.rhoDot = .at k) (hn : 2 ≤ g.rho.length) (hk' : k < g.rho.length)
    (hd : ¬ (g.rho.getD 1 0 - g.rho.getD 0 0 < 0 ∧ g.rho.getD (g.rho.length - 1) 0 - g.rho.getD (g.rho.length - 2) 0 < 0))
    (hd' : ¬ (0 < g.rho.getD 1 0 - g.rho.getD 0 0 ∧ 0 < g.rho.getD (g.rho.length - 1) 0 - g.rho.getD (g.rho.length - 2) 0))
    (hb : (∀ r ∈ g.rho.drop k, 170000 < r) ∨ (170000 < g.rho.getD k 0 ∧ ∀ r ∈ g.rho.take k, 170000 < r)) :
    getProfileDir g = .error .index := by
  have rem : 170000 < g.rho[k] → removeBeyondRings g = .error .index := by
    intro hr
    unfold removeBeyondRings firstIndex
    cases hf : g.rho.findIdx? fun r => decide (170000 < r) with
    | none =>
      rw [List.findIdx?_eq_none_iff] at hf
      have := hf _ (List.getElem_mem hk')
      simp [hr] at this
    | some i =>
      rw [List.findIdx?_eq_some_iff_getElem] at hf
      obtain ⟨hi, -⟩ := hf
      simp only [bind, Except.bind]
      unfold Geom.deleteRows deleteRows npDelete
      rw [if_pos rfl, if_pos ⟨by omega, by omega⟩]
      rfl
  have hr : 170000 < g.rho[k] := by
    rcases hb with hb | hb
    · apply hb
      rw [List.mem_iff_getElem]
      exact ⟨0, by simp; omega, by simp⟩
    · have := hb.1
      rw [List.getD_eq_getElem?_getD, List.getElem?_eq_getElem hk'] at this
      exact this
  unfold getProfileDir
  rw [if_neg (by omega)]
  simp only
  rw [if_neg hd, if_neg hd']
  unfold verifyChord
  rw [hk]
  simp only
  rw [List.getElem?_eq_getElem hk']
  simp only
  rw [if_pos hr]
  by_cases k1 : (g.rho.drop k).all (fun x => decide (170000 < x)) = true
  · rw [if_pos k1, rem hr]; rfl
  · rw [if_neg k1]
    rcases hb with hb | hb
    · exact absurd (List.all_eq_true.mpr fun x hx => decide_eq_true (hb x hx)) k1
    · rw [if_pos (List.all_eq_true.mpr fun x hx => decide_eq_true (hb.2 x hx)), rem hr]; rfl

/-- An egress that turns around beyond the rings. -/
example : getProfileDir ⟨[169000, 169900, 171000, 171500, 171400, 171300], gradient [169000, 169900, 171000, 171500, 171400, 171300] 1,
    [0, 1, 2, 3, 4, 5], [], []⟩ = .error .index :=
  C83_beyond_false _ 5 (by decide +kernel) (by decide) (by decide) (by decide +kernel) (by decide +kernel)
    (Or.inl (by decide +kernel))

/-- **C83** is false for blocked times with a gap: free rows are removed. -/
theorem C83_gap_false : ∃ g : Geom, 3 ∉ g.atmos ∧ 3 ∈ g.spm ∧
    ∃ g', getProfileDir g = .ok (.egress, g') ∧ 3 ∉ g'.spm := by
  refine ⟨⟨[10, 5, 2, 6, 9, 11], gradient [10, 5, 2, 6, 9, 11] 1, [0, 1, 2, 3, 4, 5], [0, 1, 2, 4], []⟩, by decide, by decide,
    ⟨[11], [2], [5], [0, 1, 2, 4], []⟩, by decide +kernel, by decide⟩

/-- **C83** is false if egress comes first: the direction found is not that of the part that remains. -/
theorem C83_order_false : ∃ g g' : Geom, getProfileDir g = .ok (.egress, g') ∧ Falling g'.rho ∧ 2 ≤ g'.rho.length := by
  refine ⟨⟨[2, 5, 10, 4, 3, 1], gradient [2, 5, 10, 4, 3, 1] 1, [0, 1, 2, 3, 4, 5], [0, 1, 2], []⟩,
    ⟨[4, 3, 1], [-7 / 2, -3 / 2, -2], [3, 4, 5], [0, 1, 2], []⟩, by decide +kernel, by unfold Falling; decide +kernel, by decide⟩

/-- **C83** is false for chords that are split late (C82): a part of the egress counts as ingress, so that a fully blocked ingress
is not recognised. -/
theorem C83_late_false : ∃ g : Geom, Chord g.rho 2 ∧ (∀ i, i ≤ 2 → g.spm.getD i 0 ∈ g.atmos) ∧
    getProfileDir g = .ok (.both, g) := by
  refine ⟨⟨[10, 5, 2, 3, 9, 11], gradient [10, 5, 2, 3, 9, 11] 1, [0, 1, 2, 3, 4, 5], [0, 1, 2], []⟩, ?_, ?_, by decide +kernel⟩
  · refine ⟨by decide, ?_, ?_⟩
    · intro i hi
      have : i = 0 ∨ i = 1 := by omega
      rcases this with rfl | rfl <;> decide +kernel
    · intro i hi hn
      have : i = 2 ∨ i = 3 ∨ i = 4 := by simp at hn; omega
      rcases this with rfl | rfl | rfl <;> decide +kernel
  · intro i hi
    have : i = 0 ∨ i = 1 ∨ i = 2 := by omega
    rcases this with rfl | rfl | rfl <;> decide +kernel

end Verif.Geo
