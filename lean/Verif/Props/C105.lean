import Verif.Model.OffsetMask
import Verif.Props.C93
import Verif.Spec.PowerNorm

/-!
# C105: which frequency offsets are fitted
-/
namespace Verif.Cal
open Verif.Rsr Verif.Geo Verif.Cal.Spec

theorem getD_set {m : List Bool} {i j : Nat} : (m.set i false).getD j false = if i = j then false else m.getD j false := by
  by_cases h : i = j
  · subst h
    simp [List.getElem?_set]
    split <;> rfl
  · simp [h]

/-- What remains of `inp`: nothing new, everything with a neighbour, and both ends. -/
structure Remains (inp m : List Bool) : Prop where
  len : m.length = inp.length
  sub : ∀ i, m.getD i false = true → inp.getD i false = true
  pair : ∀ i, inp.getD i false = true → inp.getD (i + 1) false = true → m.getD i false = true ∧ m.getD (i + 1) false = true
  ends : ∀ i, i < 2 ∨ inp.length ≤ i + 2 → m.getD i false = inp.getD i false

theorem Remains.set {inp m : List Bool} (h : Remains inp m) {i : Nat} (h0 : 2 ≤ i) (h1 : i + 2 < inp.length)
    (h2 : m.getD (i - 1) false = false) (h3 : m.getD (i + 1) false = false) : Remains inp (m.set i false) := by
  refine ⟨by rw [List.length_set, h.len], fun j hj => ?_, fun j a b => ?_, fun j hj => ?_⟩
  · rw [getD_set] at hj
    split at hj
    · cases hj
    · exact h.sub j hj
  · obtain ⟨p1, p2⟩ := h.pair j a b
    rw [getD_set, getD_set]
    have e1 : i ≠ j := by
      rintro rfl
      rw [h3] at p2
      cases p2
    have e2 : i ≠ j + 1 := by
      intro e
      rw [show i - 1 = j by omega, p1] at h2
      cases h2
    rw [if_neg e1, if_neg e2]
    exact ⟨p1, p2⟩
  · rw [getD_set, if_neg (by omega)]
    exact h.ends j hj

theorem Remains.up {inp m : List Bool} (h : Remains inp m) {i : Nat} (h0 : 2 ≤ i) (h1 : i + 2 < inp.length) : Remains inp (stepUp m i) := by
  unfold stepUp
  split
  · rename_i hc
    exact h.set h0 h1 (by simpa using hc.2.2.1) (by simpa using hc.2.2.2.1)
  · exact h

theorem Remains.down {inp m : List Bool} (h : Remains inp m) {i : Nat} (h0 : 2 ≤ i) (h1 : i + 2 < inp.length) :
    Remains inp (stepDown m i) := by
  unfold stepDown
  split
  · simp only
    split
    · rename_i hc
      exact (h.up h0 h1).set h0 h1 (by simpa using hc.1) (by simpa using hc.2)
    · exact h.up h0 h1
  · exact h

theorem stepUp_other {m : List Bool} {i j : Nat} (h : i ≠ j) : (stepUp m i).getD j false = m.getD j false := by
  unfold stepUp
  split
  · rw [getD_set, if_neg h]
  · rfl

theorem stepDown_other {m : List Bool} {i j : Nat} (h : i ≠ j) : (stepDown m i).getD j false = m.getD j false := by
  unfold stepDown
  split
  · simp only
    split
    · rw [getD_set, if_neg h, stepUp_other h]
    · exact stepUp_other h
  · rfl

theorem stepDown_le {m : List Bool} {i j : Nat} (h : (stepDown m i).getD j false = true) : m.getD j false = true := by
  have hu : (stepUp m i).getD j false = true → m.getD j false = true := by
    unfold stepUp
    split
    · intro h
      rw [getD_set] at h
      split at h
      · cases h
      · exact h
    · exact id
  unfold stepDown at h
  split at h
  · simp only at h
    split at h
    · rw [getD_set] at h
      split at h
      · cases h
      · exact hu h
    · exact hu h
  · exact h

theorem fold_up {inp m : List Bool} (h : Remains inp m) {l : List Nat} (hl : ∀ i ∈ l, 2 ≤ i ∧ i + 2 < inp.length) :
    Remains inp (l.foldl stepUp m) := by
  induction l generalizing m with
  | nil => exact h
  | cons i l ih =>
    exact ih (h.up (hl i (by simp)).1 (hl i (by simp)).2) fun j hj => hl j (by simp [hj])

theorem fold_up_other {m : List Bool} {l : List Nat} {j : Nat} (h : j ∉ l) : (l.foldl stepUp m).getD j false = m.getD j false := by
  induction l generalizing m with
  | nil => rfl
  | cons i l ih =>
    simp only [List.mem_cons, not_or] at h
    rw [List.foldl_cons, ih h.2, stepUp_other (Ne.symm h.1)]

theorem fold_down_other {m : List Bool} {l : List Nat} {j : Nat} (h : j ∉ l) : (l.foldl stepDown m).getD j false = m.getD j false := by
  induction l generalizing m with
  | nil => rfl
  | cons i l ih =>
    simp only [List.mem_cons, not_or] at h
    rw [List.foldl_cons, ih h.2, stepDown_other (Ne.symm h.1)]

theorem fold_down_le {m : List Bool} {l : List Nat} {j : Nat} (h : (l.foldl stepDown m).getD j false = true) : m.getD j false = true := by
  induction l generalizing m with
  | nil => exact h
  | cons i l ih => exact stepDown_le (ih h)

theorem fold_down {inp m : List Bool} (h : Remains inp m) {l : List Nat} (hl : ∀ i ∈ l, 2 ≤ i ∧ i + 2 < inp.length) :
    Remains inp (l.foldl stepDown m) ∧ ∀ i ∈ l, (l.foldl stepDown m).getD i false = true →
      inp.getD (i - 1) false = true ∨ inp.getD (i + 1) false = true := by
  induction l generalizing m with
  | nil => exact ⟨h, by simp⟩
  | cons k l ih =>
    have hk := hl k (by simp)
    obtain ⟨r1, r2⟩ := ih (h.down hk.1 hk.2) fun j hj => hl j (by simp [hj])
    refine ⟨r1, fun i hi ht => ?_⟩
    rcases List.mem_cons.mp hi with rfl | hi
    · have ht := fold_down_le (m := stepDown m i) ht
      unfold stepDown at ht
      split at ht
      · simp only at ht
        split at ht
        · rw [getD_set, if_pos rfl] at ht
          cases ht
        · rename_i hc
          have hu := h.up hk.1 hk.2
          by_contra hno
          simp only [not_or, Bool.not_eq_true] at hno
          apply hc
          constructor
          · intro hx
            rw [hu.sub _ hx] at hno
            cases hno.1
          · intro hx
            rw [hu.sub _ hx] at hno
            cases hno.2
      · rename_i hc
        exact absurd ht hc
    · exact r2 i hi ht

/-- A value in the middle is kept exactly if it is good and one of its two neighbours is; the first two and the last two are always
kept; the third one is kept if one of the four values around it is good. -/
theorem C105_neighbors (m : List Bool) : (neighborCheck m).length = m.length ∧
    (∀ i, 3 ≤ i → i + 2 < m.length → ((neighborCheck m).getD i false = true ↔
      m.getD i false = true ∧ (m.getD (i - 1) false = true ∨ m.getD (i + 1) false = true))) ∧
    (∀ i, i < 2 ∨ m.length ≤ i + 2 → (neighborCheck m).getD i false = m.getD i false) ∧
    (4 < m.length → ((neighborCheck m).getD 2 false = true ↔ m.getD 2 false = true ∧
      (m.getD 0 false = true ∨ m.getD 1 false = true ∨ m.getD 3 false = true ∨ m.getD 4 false = true))) := by
  have h0 : Remains m m := ⟨rfl, fun _ h => h, fun _ a b => ⟨a, b⟩, fun _ _ => rfl⟩
  have mem2 : ∀ i ∈ (List.range m.length).filter (fun i => decide (2 ≤ i ∧ i + 2 < m.length)), 2 ≤ i ∧ i + 2 < m.length :=
    fun i hi => by simpa using (List.mem_filter.mp hi).2
  have mem3 : ∀ i ∈ ((List.range m.length).filter (fun i => decide (3 ≤ i ∧ i + 2 < m.length))).reverse, 3 ≤ i ∧ i + 2 < m.length :=
    fun i hi => by simpa using (List.mem_filter.mp (List.mem_reverse.mp hi)).2
  have h1 := fold_up h0 mem2
  obtain ⟨h2, h3⟩ := fold_down h1 (l := ((List.range m.length).filter (fun i => decide (3 ≤ i ∧ i + 2 < m.length))).reverse)
    fun i hi => ⟨by have := mem3 i hi; omega, (mem3 i hi).2⟩
  refine ⟨h2.len, fun i a b => ⟨fun h => ⟨h2.sub i h, ?_⟩, fun h => ?_⟩, h2.ends, fun h4 => ?_⟩
  · refine h3 i (List.mem_reverse.mpr (List.mem_filter.mpr ⟨List.mem_range.mpr (by omega), by simpa using ⟨a, b⟩⟩)) h
  · rcases h.2 with hn | hn
    · have := (h2.pair (i - 1) hn (by rw [show i - 1 + 1 = i by omega]; exact h.1)).2
      rwa [show i - 1 + 1 = i by omega] at this
    · exact (h2.pair i h.1 hn).1
  · unfold neighborCheck
    simp only
    rw [fold_down_other (fun h => by have := mem3 2 h; omega)]
    have hl : (List.range m.length).filter (fun i => decide (2 ≤ i ∧ i + 2 < m.length)) =
        2 :: ((List.range m.length).filter fun i => decide (3 ≤ i ∧ i + 2 < m.length)) := by
      have : m.length = 3 + (m.length - 3) := by omega
      rw [this, List.range_add, List.filter_append, List.filter_append]
      have a1 : (List.range 3).filter (fun i => decide (2 ≤ i ∧ i + 2 < 3 + (m.length - 3))) = [2] := by
        rw [show List.range 3 = [0, 1, 2] from rfl]
        simp
        omega
      have a2 : (List.range 3).filter (fun i => decide (3 ≤ i ∧ i + 2 < 3 + (m.length - 3))) = [] := by
        rw [List.filter_eq_nil_iff]
        intro i hi
        have := List.mem_range.mp hi
        simp
        omega
      rw [a1, a2]
      simp only [List.cons_append, List.nil_append]
      congr 1
      rw [List.filter_map, List.filter_map]
      congr 1
      apply List.filter_congr
      intro i _
      simp
      omega
    rw [hl, List.foldl_cons, fold_up_other (by simp)]
    unfold stepUp
    split
    · rename_i hc
      rw [getD_set, if_pos rfl]
      simp only [show 2 - 2 = 0 from rfl, show 2 - 1 = 1 from rfl, show 2 + 1 = 3 from rfl, show 2 + 2 = 4 from rfl] at hc
      constructor
      · intro h
        cases h
      · rintro ⟨-, h | h | h | h⟩
        · exact absurd h hc.2.1
        · exact absurd h hc.2.2.1
        · exact absurd h hc.2.2.2.1
        · exact absurd h hc.2.2.2.2
    · rename_i hc
      constructor
      · intro h
        refine ⟨h, ?_⟩
        by_contra hno
        simp only [not_or] at hno
        exact hc ⟨h, hno⟩
      · exact fun h => h.1

example : neighborCheck [true, true, false, true, false, true, true, false, false] =
    [true, true, false, false, false, true, true, false, false] := by decide +kernel

/-- A value whose four neighbours are all bad can be kept, inside of the list as well as at its ends. -/
theorem C105_lonely_false : ¬ ∀ (m : List Bool) (i : Nat), 2 ≤ i → i + 2 < m.length → (neighborCheck m).getD i false = true →
    (neighborCheck m).getD (i - 2) false = true ∨ (neighborCheck m).getD (i - 1) false = true ∨
    (neighborCheck m).getD (i + 1) false = true ∨ (neighborCheck m).getD (i + 2) false = true := by
  intro h
  have := h [false, false, true, false, true, false, false] 2 (by decide) (by decide) (by decide +kernel)
  revert this
  decide +kernel

theorem clip_step {f diff : List ℚ} {far : ℚ → Bool} {df : ℚ} {mask : List Bool} {i : Nat} (hi : i < f.length)
    (hl : mask.length = f.length) (hm : ∀ j, i ≤ j → j < f.length → mask.getD j false = true) :
    ∃ r, clipStep f diff far df mask i = .ok r ∧ r = mask.set i (decide (¬ (f.getD i 0 < -150 ∨ 150 < f.getD i 0) ∧ far (diff.getD i 0) = false ∧
      (2 ≤ i → i + 2 < f.length → |f.getD i 0 - f.getD (i - 1) 0| ≤ df ∧ |f.getD i 0 - f.getD (i + 1) 0| ≤ df))) := by
  have hset : mask.set i true = mask := by
    apply List.ext_getElem
    · simp
    · intro k h1 h2
      rw [List.getElem_set]
      split
      · rename_i e
        subst e
        have := hm i le_rfl hi
        simpa [List.getElem?_eq_getElem h2] using this.symm
      · rfl
  unfold clipStep
  simp only
  split
  · rename_i h
    refine ⟨_, rfl, ?_⟩
    rw [decide_eq_false (fun hc => hc.1 h)]
  rename_i h1
  split
  · rename_i h
    refine ⟨_, rfl, ?_⟩
    rw [decide_eq_false (fun hc => by rw [h] at hc; cases hc.2.1)]
  rename_i h2
  split
  · rename_i h3
    split
    · rename_i h4
      refine ⟨_, rfl, ?_⟩
      rw [decide_eq_false]
      intro hc
      have := hc.2.2 (by omega) (by omega)
      rcases h4 with h | h
      · linarith [this.1]
      · linarith [this.2]
    · rename_i h4
      simp only [not_or, not_lt] at h4
      have s1 : ∀ b, b + 1 < f.length → i ≤ b → scan mask b f.length f.length 1 = 1 := by
        intro b hb hib
        obtain ⟨n, hn⟩ : ∃ n, f.length = n + 1 := ⟨f.length - 1, by omega⟩
        rw [show scan mask b f.length f.length 1 = scan mask b f.length (n + 1) 1 by rw [← hn]]
        unfold scan
        rw [if_neg]
        rintro ⟨-, h⟩
        rw [hm _ (by omega) hb] at h
        cases h
      rw [s1 i (by omega) le_rfl, s1 (i + 1) (by omega) (by omega), if_neg (by omega), if_neg (fun h => by linarith [h.1])]
      refine ⟨_, rfl, ?_⟩
      rw [decide_eq_true, hset]
      exact ⟨h1, by simpa using h2, fun _ _ => h4⟩
  · rename_i h3
    refine ⟨_, rfl, ?_⟩
    rw [decide_eq_true, hset]
    exact ⟨h1, by simpa using h2, fun a b => absurd ⟨by omega, b⟩ h3⟩

theorem clip_fold {f diff : List ℚ} {far : ℚ → Bool} {df : ℚ} (n : Nat) (hn : n ≤ f.length) :
    ∃ m, (List.range n).foldlM (clipStep f diff far df) (List.replicate f.length true) = .ok m ∧ m.length = f.length ∧
      (∀ j, n ≤ j → j < f.length → m.getD j false = true) ∧ ∀ j, j < n → (m.getD j false = true ↔
        ¬ (f.getD j 0 < -150 ∨ 150 < f.getD j 0) ∧ far (diff.getD j 0) = false ∧
        (2 ≤ j → j + 2 < f.length → |f.getD j 0 - f.getD (j - 1) 0| ≤ df ∧ |f.getD j 0 - f.getD (j + 1) 0| ≤ df)) := by
  induction n with
  | zero =>
    refine ⟨_, rfl, by simp, fun j _ hj => by simp [hj], fun j hj => by omega⟩
  | succ n ih =>
    obtain ⟨m, h1, h2, h3, h4⟩ := ih (by omega)
    obtain ⟨r, r1, r2⟩ := clip_step (f := f) (diff := diff) (far := far) (df := df) (mask := m) (i := n) (by omega) h2 h3
    refine ⟨r, ?_, by rw [r2, List.length_set, h2], fun j a b => ?_, fun j hj => ?_⟩
    · rw [List.range_succ, List.foldlM_append, h1]
      simp only [bind, Except.bind, List.foldlM_cons, List.foldlM_nil, r1]
      rfl
    · rw [r2]
      simp only [List.getD_eq_getElem?_getD, List.getElem?_set, show n ≠ j by omega, if_false]
      have := h3 j (by omega) b
      simpa using this
    · rw [r2]
      rcases Nat.lt_succ_iff_lt_or_eq.mp hj with h | rfl
      · simp only [List.getD_eq_getElem?_getD, List.getElem?_set, show n ≠ j by omega, if_false]
        have := h4 j h
        simpa using this
      · simp only [List.getD_eq_getElem?_getD, List.getElem?_set, if_true, show j < m.length by omega, Option.getD_some, decide_eq_true_eq]

/-- A value passes exactly if it lies between -150 and 150 Hz, is near to the median, and (but for the first two and the last two)
differs from both neighbours by at most `df`. -/
theorem C105_clip (f diff : List ℚ) (far : ℚ → Bool) (df : ℚ) : ∃ m, sigmaClip f diff far df = .ok m ∧ m.length = f.length ∧
    ∀ i, i < f.length → (m.getD i false = true ↔ |f.getD i 0| ≤ 150 ∧ far (diff.getD i 0) = false ∧
      (2 ≤ i → i + 2 < f.length → |f.getD i 0 - f.getD (i - 1) 0| ≤ df ∧ |f.getD i 0 - f.getD (i + 1) 0| ≤ df)) := by
  obtain ⟨m, h1, h2, -, h4⟩ := clip_fold (f := f) (diff := diff) (far := far) (df := df) f.length le_rfl
  refine ⟨m, h1, h2, fun i hi => ?_⟩
  rw [h4 i hi, abs_le (a := f.getD i 0), not_or, not_lt, not_lt]

example : sigmaClip [1, 1, 1, 9, 1, 1, 1] [0, 0, 0, 8, 0, 0, 0] (fun _ => false) 2 = .ok [true, true, false, false, false, true, true] := by
  decide +kernel

/-- The first two and the last two values are not compared with their neighbours. -/
theorem C105_ends_false : ¬ ∀ (f diff : List ℚ) (far : ℚ → Bool) (df : ℚ) (m : List Bool), sigmaClip f diff far df = .ok m →
    ∀ i, i + 1 < f.length → m.getD i false = true → |f.getD i 0 - f.getD (i + 1) 0| ≤ df := by
  intro h
  have := h [9, 1, 1, 1, 1] [8, 0, 0, 0, 0] (fun _ => false) 2 [true, true, true, true, true] (by decide +kernel) 0 (by decide) rfl
  revert this
  decide +kernel

theorem neighbor_sub {m : List Bool} {i : Nat} (h : (neighborCheck m).getD i false = true) : m.getD i false = true := by
  obtain ⟨h1, h2, h3, h4⟩ := C105_neighbors m
  by_cases a : i < 2 ∨ m.length ≤ i + 2
  · rwa [h3 i a] at h
  by_cases b : i = 2
  · subst b
    exact ((h4 (by omega)).mp h).1
  · exact ((h2 i (by omega) (by omega)).mp h).1

/-- What is kept in the middle has a neighbour that is kept. -/
theorem neighbor_closed {m : List Bool} {i : Nat} (h0 : 3 ≤ i) (h1 : i + 2 < m.length) (h : (neighborCheck m).getD i false = true) :
    (neighborCheck m).getD (i - 1) false = true ∨ (neighborCheck m).getD (i + 1) false = true := by
  obtain ⟨-, e2, e3, e4⟩ := C105_neighbors m
  obtain ⟨hi, hn⟩ := (e2 i h0 h1).mp h
  rcases hn with hn | hn
  · left
    by_cases b : i = 3
    · subst b
      exact (e4 (by omega)).mpr ⟨hn, .inr (.inr (.inl hi))⟩
    · exact (e2 (i - 1) (by omega) (by omega)).mpr ⟨hn, .inr (by rwa [show i - 1 + 1 = i by omega])⟩
  · right
    by_cases b : m.length ≤ i + 1 + 2
    · rw [e3 _ (.inr b)]
      exact hn
    · exact (e2 (i + 1) (by omega) (by omega)).mpr ⟨hn, .inl hi⟩

/-- What is fitted lies between -150 and 150 Hz and, but for the first three and the last two, has a neighbour that is fitted.
Either at least five values are near the median and (but for the ends) near their neighbours and all that is fitted is, or all that
is fitted lies outside of the B ring. -/
theorem C105_mask_partial {f rho : List ℚ} (hl : f.length = rho.length) (h0 : f ≠ []) (df : ℚ) :
    ∃ (m : List Bool) (med s : ℚ), IsMedian f med ∧ IsMedian (f.map fun x => (x - med) ^ 2) s ∧ offsetMask f rho df = .ok m ∧
      m.length = f.length ∧
      (∀ i, i < f.length → m.getD i false = true → |f.getD i 0| ≤ 150 ∧
        (3 ≤ i → i + 2 < f.length → m.getD (i - 1) false = true ∨ m.getD (i + 1) false = true)) ∧
      (5 ≤ m.count true ∧ (∀ i, i < f.length → m.getD i false = true → |f.getD i 0 - med| ≤ 15 ∧ (f.getD i 0 - med) ^ 2 ≤ 25 * s ∧
          (2 ≤ i → i + 2 < f.length → |f.getD i 0 - f.getD (i - 1) 0| ≤ df ∧ |f.getD i 0 - f.getD (i + 1) 0| ≤ df)) ∨
        ∀ i, i < f.length → m.getD i false = true → ¬ (92000 < rho.getD i 0 ∧ rho.getD i 0 < 118000)) := by
  have hm := median_spec h0
  have hs : IsMedian (f.map fun x => (x - median f) ^ 2) (median (f.map fun x => (x - median f) ^ 2)) :=
    median_spec (by simpa using h0)
  obtain ⟨c, c1, c2, c3⟩ := C105_clip f (f.map fun x => |x - median f|)
    (fun d => decide (25 * median (f.map fun x => (x - median f) ^ 2) < d ^ 2 ∨ 225 < d ^ 2)) df
  have nb := C105_neighbors c
  unfold offsetMask
  simp only [c1, bind, Except.bind, pure, Except.pure]
  split
  · set z := (f.zip rho).map fun p => !(decide (p.1 < -150 ∨ 150 < p.1) || decide (92000 < p.2 ∧ p.2 < 118000)) with hz
    have zl : z.length = f.length := by simp [hz, hl]
    have zi : ∀ i, i < f.length → z.getD i false = true → |f.getD i 0| ≤ 150 ∧ ¬ (92000 < rho.getD i 0 ∧ rho.getD i 0 < 118000) := by
      intro i hi h
      have hr : i < rho.length := by omega
      have : z.getD i false = !(decide (f[i] < -150 ∨ 150 < f[i]) || decide (92000 < rho[i] ∧ rho[i] < 118000)) := by
        rw [hz]
        simp [List.getElem?_eq_getElem, hi, hr]
      rw [this, Bool.not_eq_true', Bool.or_eq_false_iff, decide_eq_false_iff_not, decide_eq_false_iff_not] at h
      rw [getD_at hi, getD_at hr]
      refine ⟨abs_le.mpr ?_, h.2⟩
      have := h.1
      rw [not_or, not_lt, not_lt] at this
      exact this
    refine ⟨_, _, _, hm, hs, rfl, by rw [(C105_neighbors z).1, zl], fun i hi h => ⟨(zi i hi (neighbor_sub h)).1, fun a b => ?_⟩,
      .inr fun i hi h => (zi i hi (neighbor_sub h)).2⟩
    exact neighbor_closed a (by omega) h
  · rename_i h5
    refine ⟨_, _, _, hm, hs, rfl, by rw [nb.1, c2], fun i hi h => ⟨((c3 i hi).mp (neighbor_sub h)).1, fun a b => ?_⟩,
      .inl ⟨by omega, fun i hi h => ?_⟩⟩
    · exact neighbor_closed a (by omega) h
    · obtain ⟨-, h2, h3⟩ := (c3 i hi).mp (neighbor_sub h)
      rw [decide_eq_false_iff_not, not_or, not_lt, not_lt, getD_at (by simpa using hi), List.getElem_map, ← getD_at hi, sq_abs] at h2
      refine ⟨?_, h2.1, h3⟩
      exact abs_le.mpr ⟨by nlinarith [h2.2], by nlinarith [h2.2]⟩

/-- Six offsets and a jump. -/
example : offsetMask [1, 1, 1, 40, 1, 1, 1, 1] [1, 2, 3, 4, 5, 6, 7, 8] 1 = .ok [true, true, false, false, false, true, true, true] := by
  decide +kernel

/-- Data in the rings are fitted if they pass the other conditions. -/
theorem C105_rings_false : ¬ ∀ (f rho : List ℚ) (df : ℚ) (m : List Bool), f.length = rho.length → 0 ≤ df → offsetMask f rho df = .ok m →
    ∀ i, i < f.length → m.getD i false = true → ¬ (92000 < rho.getD i 0 ∧ rho.getD i 0 < 118000) := by
  intro h
  exact h [1, 1, 1, 1, 1] [100000, 100001, 100002, 100003, 100004] 1 [true, true, true, true, true] rfl (by norm_num)
    (by decide +kernel) 0 (by decide) rfl (by decide +kernel)

end Verif.Cal
