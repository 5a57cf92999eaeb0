import Verif.Model.ForwardModel
import Mathlib.Algebra.Order.Floor.Semifield
import Mathlib.Tactic.Linarith
import Mathlib.Tactic.NormNum
import Mathlib.Tactic.FieldSimp
import Mathlib.Tactic.Ring

/-!
# C155 and C157: the profiles of the modelled rings

rss_ringoccs/tools/advanced_tools.py.
-/
namespace Verif.Fwd
namespace Spec

/-- The radii grow. -/
def Rising (r : List ℚ) : Prop := r.Pairwise (· < ·)

/-- The profile `p` has at each radius the value of `f`. -/
def Is (p r : List ℚ) (f : ℚ → ℚ) : Prop := p = r.map f

/-- Opaque within half the width of the centre. -/
def ringletAt (rho width opacity x : ℚ) : ℚ := if |x - rho| ≤ width / 2 then opacity else 1

/-- Free within half the width of the centre. -/
def gapAt (rho width opacity x : ℚ) : ℚ := if |x - rho| ≤ width / 2 then 1 else opacity

/-- Free from the edge outwards. -/
def rightAt (rho opacity x : ℚ) : ℚ := if rho ≤ x then 1 else opacity

/-- Free up to the edge. -/
def leftAt (rho opacity x : ℚ) : ℚ := if x ≤ rho then 1 else opacity

/-- Sample `i` of a wave with `n` samples free and `n` opaque, the first sample being the one with the number `s` of its wave. -/
def waveAt (n s i : Nat) : ℚ := if (i + s) / n % 2 = 0 then 1 else 0

end Spec
open Spec

theorem mem_nonzero {p : ℚ → Bool} {l : List ℚ} {i : Nat} : i ∈ nonzero p l ↔ i < l.length ∧ p (l.getD i 0) = true := by
  simp [nonzero]

theorem getD_lt {l : List ℚ} (h : Rising l) {i j : Nat} (hij : i < j) (hj : j < l.length) : l.getD i 0 < l.getD j 0 := by
  rw [List.getD_eq_getElem?_getD, List.getD_eq_getElem?_getD, List.getElem?_eq_getElem (by omega : i < l.length), List.getElem?_eq_getElem hj]
  exact List.pairwise_iff_getElem.mp h i j (by omega) hj hij

theorem getD_le {l : List ℚ} (h : Rising l) {i j : Nat} (hij : i ≤ j) (hj : j < l.length) : l.getD i 0 ≤ l.getD j 0 := by
  rcases Nat.lt_or_eq_of_le hij with h1 | rfl
  · exact le_of_lt (getD_lt h h1 hj)
  · exact le_refl _

/-- The samples from the first index on are those with the property, if it is kept upwards. -/
theorem minIdx_iff {p : ℚ → Bool} {l : List ℚ} {k : Nat} (hr : Rising l) (hp : ∀ x y, x ≤ y → p x = true → p y = true) (h : minIdx p l = some k)
    {i : Nat} (hi : i < l.length) : k ≤ i ↔ p (l.getD i 0) = true := by
  obtain ⟨h1, h2⟩ := List.min?_eq_some_iff.mp h
  obtain ⟨h3, h4⟩ := mem_nonzero.mp h1
  exact ⟨fun hk => hp _ _ (getD_le hr hk hi) h4, fun hq => h2 i (mem_nonzero.mpr ⟨hi, hq⟩)⟩

theorem maxIdx_iff {p : ℚ → Bool} {l : List ℚ} {k : Nat} (hr : Rising l) (hp : ∀ x y, x ≤ y → p y = true → p x = true) (h : maxIdx p l = some k)
    {i : Nat} (hi : i < l.length) : i ≤ k ↔ p (l.getD i 0) = true := by
  obtain ⟨h1, h2⟩ := List.max?_eq_some_iff.mp h
  obtain ⟨h3, h4⟩ := mem_nonzero.mp h1
  exact ⟨fun hk => hp _ _ (getD_le hr hk h3) h4, fun hq => h2 i (mem_nonzero.mpr ⟨hi, hq⟩)⟩

theorem minIdx_lt {p : ℚ → Bool} {l : List ℚ} {k : Nat} (h : minIdx p l = some k) : k < l.length ∧ p (l.getD k 0) = true :=
  mem_nonzero.mp (List.min?_eq_some_iff.mp h).1

theorem maxIdx_lt {p : ℚ → Bool} {l : List ℚ} {k : Nat} (h : maxIdx p l = some k) : k < l.length ∧ p (l.getD k 0) = true :=
  mem_nonzero.mp (List.max?_eq_some_iff.mp h).1

theorem setSlice_length (l : List ℚ) (a b : Nat) (v : ℚ) : (setSlice l a b v).length = l.length := by simp [setSlice]

theorem setSlice_at {l : List ℚ} {a b i : Nat} {v : ℚ} (hi : i < l.length) :
    (setSlice l a b v).getD i 0 = if a ≤ i ∧ i < b then v else l.getD i 0 := by
  simp only [setSlice, List.getD_eq_getElem?_getD, List.getElem?_mapIdx, List.getElem?_eq_getElem hi, Option.map_some, Option.getD_some]

theorem replicate_at {n i : Nat} {v : ℚ} (hi : i < n) : (List.replicate n v).getD i 0 = v := by
  rw [List.getD_eq_getElem?_getD, List.getElem?_replicate, if_pos hi]; rfl

theorem is_of {p r : List ℚ} {f : ℚ → ℚ} (hl : p.length = r.length) (h : ∀ i, i < r.length → p.getD i 0 = f (r.getD i 0)) : Is p r f := by
  unfold Is
  apply List.ext_getElem
  · simp [hl]
  · intro i h1 h2
    have := h i (by omega)
    rw [List.getD_eq_getElem?_getD, List.getD_eq_getElem?_getD, List.getElem?_eq_getElem h1, List.getElem?_eq_getElem (by omega : i < r.length)] at this
    simpa using this

theorem at_of_is {p r : List ℚ} {f : ℚ → ℚ} (h : Is p r f) {i : Nat} (hi : i < r.length) : p.getD i 0 = f (r.getD i 0) := by
  unfold Is at h
  subst h
  simp [List.getD_eq_getElem?_getD, List.getElem?_eq_getElem hi]

/-- **C155.** A ringlet is opaque where the radius differs from its own by at most half its width, and nowhere else. -/
theorem C155_ringlet {r p : List ℚ} {rho width opacity : ℚ} (hr : Rising r) (h : ringlet r rho width opacity = .ok p) :
    Is p r (ringletAt rho width opacity) := by
  unfold ringlet at h
  split at h
  · rename_i a b ha hb
    cases h
    refine is_of (by simp [setSlice_length]) fun i hi => ?_
    rw [setSlice_at (by simpa using hi), replicate_at hi]
    have h1 := minIdx_iff hr (by intro x y hxy hx; simp only [decide_eq_true_eq] at hx ⊢; linarith) ha hi
    have h2 := maxIdx_iff hr (by intro x y hxy hx; simp only [decide_eq_true_eq] at hx ⊢; linarith) hb hi
    simp only [decide_eq_true_eq] at h1 h2
    simp only [ringletAt, Nat.lt_succ_iff, h1, h2, abs_le]
    congr 1
    apply propext
    constructor
    · rintro ⟨h3, h4⟩; constructor <;> linarith
    · rintro ⟨h3, h4⟩; constructor <;> linarith
  · cases h

/-- **C155.** A gap is free where the radius differs from its own by at most half its width, and nowhere else. -/
theorem C155_gap {r p : List ℚ} {rho width opacity : ℚ} (hr : Rising r) (h : gap r rho width opacity = .ok p) :
    Is p r (gapAt rho width opacity) := by
  unfold gap at h
  split at h
  · rename_i a b ha hb
    cases h
    refine is_of (by simp [setSlice_length]) fun i hi => ?_
    rw [setSlice_at (by simpa using hi), replicate_at hi]
    have h1 := minIdx_iff hr (by intro x y hxy hx; simp only [decide_eq_true_eq] at hx ⊢; linarith) ha hi
    have h2 := maxIdx_iff hr (by intro x y hxy hx; simp only [decide_eq_true_eq] at hx ⊢; linarith) hb hi
    simp only [decide_eq_true_eq] at h1 h2
    simp only [gapAt, Nat.lt_succ_iff, h1, h2, abs_le]
    congr 1
    apply propext
    constructor
    · rintro ⟨h3, h4⟩; constructor <;> linarith
    · rintro ⟨h3, h4⟩; constructor <;> linarith
  · cases h

/-- **C155.** Both succeed when there is a radius on each side. -/
theorem C155_possible {r : List ℚ} {rho width opacity : ℚ} {x y : ℚ} (hx : x ∈ r) (hy : y ∈ r) (h1 : x ≤ rho + width / 2) (h2 : rho - width / 2 ≤ y) :
    (∃ p, ringlet r rho width opacity = .ok p) ∧ ∃ p, gap r rho width opacity = .ok p := by
  have some_of : ∀ (q : ℚ → Bool) (z : ℚ), z ∈ r → q z = true → (nonzero q r) ≠ [] := by
    intro q z hz hq he
    obtain ⟨i, hi, rfl⟩ := List.getElem_of_mem hz
    have : i ∈ nonzero q r := mem_nonzero.mpr ⟨hi, by rw [List.getD_eq_getElem?_getD, List.getElem?_eq_getElem hi]; exact hq⟩
    rw [he] at this
    cases this
  have ha : ∃ a, minIdx (fun z => decide (rho - width / 2 ≤ z)) r = some a := by
    cases hm : minIdx (fun z => decide (rho - width / 2 ≤ z)) r with
    | none => exact absurd (List.min?_eq_none_iff.mp hm) (some_of _ y hy (decide_eq_true h2))
    | some a => exact ⟨a, rfl⟩
  have hb : ∃ b, maxIdx (fun z => decide (z ≤ rho + width / 2)) r = some b := by
    cases hm : maxIdx (fun z => decide (z ≤ rho + width / 2)) r with
    | none => exact absurd (List.max?_eq_none_iff.mp hm) (some_of _ x hx (decide_eq_true h1))
    | some b => exact ⟨b, rfl⟩
  obtain ⟨a, ha⟩ := ha
  obtain ⟨b, hb⟩ := hb
  exact ⟨⟨_, by simp only [ringlet, ha, hb]; rfl⟩, ⟨_, by simp only [gap, ha, hb]; rfl⟩⟩

/-- A ringlet of two kilometres. -/
example : ∃ p, ringlet [8, 9, 10, 11, 12] 10 2 (1 / 4) = .ok p ∧ p = [1, 1 / 4, 1 / 4, 1 / 4, 1] := by
  obtain ⟨p, hp⟩ := (C155_possible (r := [8, 9, 10, 11, 12]) (rho := 10) (width := 2) (opacity := 1 / 4) (x := 8) (y := 12) (by simp) (by simp)
    (by norm_num) (by norm_num)).1
  have h := C155_ringlet (by unfold Rising; decide +kernel) hp
  exact ⟨p, hp, by rw [h]; decide +kernel⟩

/-- **C157.** (Full claim: at every radius.)  An edge that is free on the right is right at every sample but the last. -/
theorem C157_right_partial {r p : List ℚ} {rho opacity : ℚ} (hr : Rising r) (h : rightEdge r rho opacity = .ok p) {i : Nat} (hi : i + 1 < r.length) :
    p.getD i 0 = rightAt rho opacity (r.getD i 0) := by
  unfold rightEdge at h
  split at h
  · rename_i a ha
    cases h
    rw [setSlice_at (by simp; omega), replicate_at (by omega)]
    have h1 := minIdx_iff hr (by intro x y hxy hx; simp only [decide_eq_true_eq] at hx ⊢; linarith) ha (by omega : i < r.length)
    simp only [decide_eq_true_eq] at h1
    have h2 : i < r.length - 1 := by omega
    simp only [rightAt, h1, h2, and_true]
  · cases h

/-- **C157.** The last sample is opaque, although it lies right of the edge, in every model. -/
theorem C157_right_false {r p : List ℚ} {rho opacity : ℚ} (hr : Rising r) (ho : opacity ≠ 1) (h : rightEdge r rho opacity = .ok p) :
    p.getD (r.length - 1) 0 = opacity ∧ ¬ Is p r (rightAt rho opacity) := by
  unfold rightEdge at h
  split at h
  · rename_i a ha
    cases h
    obtain ⟨h1, h2⟩ := minIdx_lt ha
    have hl : (setSlice (List.replicate r.length opacity) a (r.length - 1) 1).getD (r.length - 1) 0 = opacity := by
      rw [setSlice_at (by simp; omega), replicate_at (by omega), if_neg (by omega)]
    refine ⟨hl, fun hi => ?_⟩
    have := at_of_is hi (i := r.length - 1) (by omega)
    rw [hl] at this
    have hle : rho ≤ r.getD (r.length - 1) 0 := le_trans (by simpa using h2) (getD_le hr (by omega : a ≤ r.length - 1) (by omega))
    rw [rightAt, if_pos hle] at this
    exact ho this
  · cases h

/-- Five radii and an edge at ten: the last sample is opaque. -/
example : ∃ p, rightEdge [8, 9, 10, 11, 12] 10 (1 / 4) = .ok p ∧ p = [1 / 4, 1 / 4, 1, 1, 1 / 4] := ⟨_, rfl, by decide +kernel⟩

/-- **C157.** (Full claim: at every radius.)  An edge that is free on the left is right at every sample but the last one left of it. -/
theorem C157_left_partial {r p : List ℚ} {rho opacity : ℚ} (hr : Rising r) (h : leftEdge r rho opacity = .ok p) {i : Nat} (hi : i < r.length)
    (hn : rho < r.getD i 0 ∨ (i + 1 < r.length ∧ r.getD (i + 1) 0 ≤ rho)) : p.getD i 0 = leftAt rho opacity (r.getD i 0) := by
  unfold leftEdge at h
  split at h
  · rename_i b hb
    cases h
    rw [setSlice_at (by simpa using hi), replicate_at hi]
    have down : ∀ x y : ℚ, x ≤ y → (decide (y ≤ rho) = true) → decide (x ≤ rho) = true := by
      intro x y hxy hx; simp only [decide_eq_true_eq] at hx ⊢; linarith
    rcases hn with hn | ⟨h1, h2⟩
    · have h3 := maxIdx_iff hr down hb hi
      simp only [decide_eq_true_eq] at h3
      rw [leftAt, if_neg (not_le.mpr hn), if_neg]
      intro hc
      exact absurd (h3.mp (by omega)) (not_le.mpr hn)
    · have h3 := maxIdx_iff hr down hb h1
      simp only [decide_eq_true_eq] at h3
      have h4 := h3.mpr h2
      rw [leftAt, if_pos (le_trans (getD_le hr (Nat.le_succ i) h1) h2), if_pos ⟨Nat.zero_le _, by omega⟩]
  · cases h

/-- **C157.** The last sample left of the edge is opaque, in every model. -/
theorem C157_left_false {r p : List ℚ} {rho opacity : ℚ} (ho : opacity ≠ 1) (h : leftEdge r rho opacity = .ok p) :
    ∃ i, i < r.length ∧ r.getD i 0 ≤ rho ∧ p.getD i 0 = opacity ∧ ¬ Is p r (leftAt rho opacity) := by
  unfold leftEdge at h
  split at h
  · rename_i b hb
    cases h
    obtain ⟨h1, h2⟩ := maxIdx_lt hb
    have h3 : r.getD b 0 ≤ rho := by simpa using h2
    have hl : (setSlice (List.replicate r.length opacity) 0 b 1).getD b 0 = opacity := by
      rw [setSlice_at (by simpa using h1), replicate_at h1, if_neg (by omega)]
    refine ⟨b, h1, h3, hl, fun hi => ?_⟩
    have := at_of_is hi h1
    rw [hl, leftAt, if_pos h3] at this
    exact ho this
  · cases h

/-- The sample at the edge is opaque. -/
example : ∃ p, leftEdge [8, 9, 10, 11, 12] 10 (1 / 4) = .ok p ∧ p = [1, 1, 1 / 4, 1 / 4, 1 / 4] := ⟨_, rfl, by decide +kernel⟩

/-- **C155.** An impulse has the integral one. -/
theorem C155_impulse {r p : List ℚ} {rho dx : ℚ} (hd : dx ≠ 0) (h : deltaImpulse r rho dx = .ok p) :
    ∃ c, c < r.length ∧ rho ≤ r.getD c 0 ∧ (∀ i, i < r.length → rho ≤ r.getD i 0 → c ≤ i) ∧ p.getD c 0 * dx = 1 ∧ ∀ i, i < r.length → i ≠ c → p.getD i 0 = 0 := by
  unfold deltaImpulse at h
  split at h
  · rename_i c hc
    cases h
    obtain ⟨h1, h2⟩ := minIdx_lt hc
    refine ⟨c, h1, by simpa using h2, fun i hi hle => (List.min?_eq_some_iff.mp hc).2 i (mem_nonzero.mpr ⟨hi, by simpa using hle⟩), ?_, ?_⟩
    · rw [setSlice_at (by simpa using h1), if_pos ⟨le_refl _, Nat.lt_succ_self _⟩, one_div, inv_mul_cancel₀ hd]
    · intro i hi hne
      rw [setSlice_at (by simpa using hi), replicate_at hi, if_neg (by omega)]
  · cases h

/-- An impulse at ten in steps of a half. -/
example : ∃ p, deltaImpulse [9, 19 / 2, 10, 21 / 2] 10 (1 / 2) = .ok p ∧ p = [0, 0, 2, 0] := ⟨[0, 0, 2, 0], by decide +kernel, rfl⟩

theorem waves_length (l : List ℚ) (a n k : Nat) : (waves l a n k).length = l.length := by
  induction k with
  | zero => rfl
  | succ k ih => rw [waves, setSlice_length, ih]

/-- After `k` turns a sample is free if it was or if it lies in one of the slices. -/
theorem waves_at {l : List ℚ} {a n k i : Nat} (hi : i < l.length) :
    (waves l a n k).getD i 0 = if ∃ j < k, a + 2 * j * n ≤ i ∧ i < a + (2 * j + 1) * n then 1 else l.getD i 0 := by
  induction k with
  | zero => rw [if_neg (by rintro ⟨j, hj, -⟩; omega)]; rfl
  | succ k ih =>
    rw [waves, setSlice_at (by rw [waves_length]; exact hi), ih]
    by_cases h : a + 2 * k * n ≤ i ∧ i < a + (2 * k + 1) * n
    · rw [if_pos h, if_pos ⟨k, by omega, h⟩]
    · rw [if_neg h]
      congr 1
      apply propext
      constructor
      · rintro ⟨j, hj, h2⟩; exact ⟨j, by omega, h2⟩
      · rintro ⟨j, hj, h2⟩
        rcases Nat.lt_or_eq_of_le (Nat.lt_succ_iff.mp hj) with h3 | rfl
        · exact ⟨j, h3, h2⟩
        · exact absurd h2 h

/-- The radii of a wave: `m` samples, `n` of them in half a wave, the first with the number `s` in wave `k`. -/
def waveGrid (k n s m : Nat) (dx : ℚ) : List ℚ := (List.range m).map fun (i : ℕ) => ((2 * k * n + s + i : ℕ) : ℚ) * dx

theorem waveGrid_at {k n s m i : Nat} {dx : ℚ} (hi : i < m) : (waveGrid k n s m dx).getD i 0 = ((2 * k * n + s + i : ℕ) : ℚ) * dx := by
  simp [waveGrid, List.getD_eq_getElem?_getD, List.getElem?_range hi]

theorem waveGrid_length (k n s m : Nat) (dx : ℚ) : (waveGrid k n s m dx).length = m := by simp [waveGrid]

theorem floor_ratio {a b : Nat} {dx : ℚ} (hdx : 0 < dx) (hb : 0 < b) : ⌊((a : ℚ) * dx) / ((b : ℚ) * dx)⌋₊ = a / b := by
  have h1 : ((a : ℚ) * dx) / ((b : ℚ) * dx) = (a : ℚ) / b := by
    have : (b : ℚ) ≠ 0 := by positivity
    field_simp
  rw [h1, Nat.floor_div_eq_div]

theorem nstart_eq {k n s m : Nat} {dx : ℚ} (hdx : 0 < dx) (hm : n - s < m) :
    minIdx (fun x => decide (((2 * k * n + n : ℕ) : ℚ) * dx ≤ x)) (waveGrid k n s m dx) = some (n - s) := by
  have key : ∀ i < m, (((2 * k * n + n : ℕ) : ℚ) * dx ≤ (waveGrid k n s m dx).getD i 0 ↔ n - s ≤ i) := by
    intro i hi
    rw [waveGrid_at hi, mul_le_mul_iff_left₀ hdx, Nat.cast_le]
    omega
  refine List.min?_eq_some_iff.mpr ⟨mem_nonzero.mpr ⟨by rw [waveGrid_length]; exact hm, ?_⟩, fun b hb => ?_⟩
  · simpa using (key _ hm).mpr (le_refl _)
  · obtain ⟨h1, h2⟩ := mem_nonzero.mp hb
    rw [waveGrid_length] at h1
    exact (key _ h1).mp (by simpa using h2)

/-- What the model of a square wave is on such a grid. -/
theorem square_eq {k n s m : Nat} {dx : ℚ} (hdx : 0 < dx) (hn : 0 < n) (hs2 : s < 2 * n) (hm : n - s < m) :
    squareWave (waveGrid k n s m dx) ((n : ℚ) * dx) dx =
      .ok (waves (setSlice (List.replicate m 0) 0 (n - s) 1) (n - s + n) n ((m - 1) / (2 * n) - 1)) := by
  have hpos : 0 < m := by omega
  have hhead : (waveGrid k n s m dx).head? = some (((2 * k * n + s : ℕ) : ℚ) * dx) := by
    obtain ⟨j, rfl⟩ : ∃ j, m = j + 1 := ⟨m - 1, by omega⟩
    simp [waveGrid, List.range_succ_eq_map]
  have hlast : (waveGrid k n s m dx).getLast? = some (((2 * k * n + s + (m - 1) : ℕ) : ℚ) * dx) := by
    obtain ⟨j, rfl⟩ : ∃ j, m = j + 1 := ⟨m - 1, by omega⟩
    simp [waveGrid, List.range_succ]
  unfold squareWave
  simp only [hhead, hlast, waveGrid_length]
  have e1 : (((2 * k * n + s + (m - 1) : ℕ) : ℚ) * dx - ((2 * k * n + s : ℕ) : ℚ) * dx) / (2 * ((n : ℚ) * dx)) =
      (((m - 1 : ℕ) : ℚ) * dx) / (((2 * n : ℕ) : ℚ) * dx) := by push_cast; congr 1 <;> ring
  have e2 : ((n : ℚ) * dx) / dx = (((n : ℕ) : ℚ) * dx) / (((1 : ℕ) : ℚ) * dx) := by push_cast; rw [one_mul]
  have e3 : (((2 * k * n + s : ℕ) : ℚ) * dx) / (2 * ((n : ℚ) * dx)) = (((2 * k * n + s : ℕ) : ℚ) * dx) / (((2 * n : ℕ) : ℚ) * dx) := by
    push_cast; congr 1; ring
  have e4 : (2 * k * n + s) / (2 * n) = k := by
    rw [show 2 * k * n + s = 2 * n * k + s by ring, Nat.mul_add_div (by omega), Nat.div_eq_of_lt hs2, Nat.add_zero]
  rw [e1, floor_ratio hdx (by omega), e2, floor_ratio hdx (by omega), Nat.div_one, e3, floor_ratio hdx (by omega), e4]
  have e5 : ((k : ℕ) : ℚ) * 2 * ((n : ℚ) * dx) + (n : ℚ) * dx = ((2 * k * n + n : ℕ) : ℚ) * dx := by push_cast; ring
  rw [e5, nstart_eq hdx hm]

/-- **C157.** (Full claim: at every sample, for every first radius.)  When the first radius lies in the free half of a wave and half a wave is a
whole number of samples, the model is the wave for the first whole waves. -/
theorem C157_square_partial {k n s m : Nat} {dx : ℚ} (hdx : 0 < dx) (hn : 0 < n) (hs : s ≤ n) (hm : n - s < m) :
    ∃ p, squareWave (waveGrid k n s m dx) ((n : ℚ) * dx) dx = .ok p ∧ ∀ i < m, i + s < 2 * n * ((m - 1) / (2 * n)) → p.getD i 0 = waveAt n s i := by
  refine ⟨_, square_eq hdx hn (by omega) hm, fun i hi hlt => ?_⟩
  rw [waves_at (by simpa [setSlice_length] using hi), setSlice_at (by simpa using hi), replicate_at hi, waveAt]
  generalize hN : (m - 1) / (2 * n) = N at hlt ⊢
  have hdm := Nat.div_add_mod (i + s) n
  have hml := Nat.mod_lt (i + s) hn
  generalize hq : (i + s) / n = q at hdm ⊢
  generalize hr : (i + s) % n = t at hdm hml
  rcases Nat.mod_two_eq_zero_or_one q with h0 | h1
  · rw [if_pos h0]
    obtain ⟨j, rfl⟩ : ∃ j, q = 2 * j := ⟨q / 2, by omega⟩
    by_cases hj : j = 0
    · subst hj
      split
      · rfl
      · rw [if_pos ⟨Nat.zero_le _, by simp at hdm; omega⟩]
    · rw [if_pos]
      obtain ⟨j, rfl⟩ : ∃ j', j = j' + 1 := ⟨j - 1, by omega⟩
      have hjN : j + 1 < N := by
        by_contra hc
        have : 2 * n * N ≤ 2 * n * (j + 1) := Nat.mul_le_mul_left _ (by omega)
        have h5 : n * (2 * (j + 1)) = 2 * n * (j + 1) := by ring
        omega
      refine ⟨j, by omega, ?_, ?_⟩
      · have : n * (2 * (j + 1)) = 2 * j * n + 2 * n := by ring
        omega
      · have : n * (2 * (j + 1)) = 2 * j * n + 2 * n := by ring
        have h6 : (2 * j + 1) * n = 2 * j * n + n := by ring
        omega
  · rw [if_neg (by omega : ¬ q % 2 = 0)]
    obtain ⟨j, rfl⟩ : ∃ j, q = 2 * j + 1 := ⟨q / 2, by omega⟩
    have e : n * (2 * j + 1) = 2 * j * n + n := by ring
    rw [if_neg, if_neg]
    · rintro ⟨-, h⟩
      have : 0 ≤ 2 * j * n := Nat.zero_le _
      omega
    · rintro ⟨l, hl, h2, h3⟩
      have e6 : (2 * l + 1) * n = 2 * l * n + n := by ring
      rcases Nat.lt_or_ge l j with hlj | hlj
      · -- the slice ends before
        have : 2 * (l + 1) * n ≤ 2 * j * n := Nat.mul_le_mul_right _ (by omega)
        have e7 : 2 * (l + 1) * n = 2 * l * n + 2 * n := by ring
        omega
      · have : 2 * j * n ≤ 2 * l * n := Nat.mul_le_mul_right _ (by omega)
        omega

/-- Two samples in half a wave, ten samples in all: two waves. -/
example : ∃ p, squareWave (waveGrid 3 2 0 10 (1 / 4)) (((2 : ℕ) : ℚ) * (1 / 4)) (1 / 4) = .ok p ∧ p.getD 4 0 = 1 ∧ p.getD 6 0 = 0 := by
  obtain ⟨p, hp, h⟩ := C157_square_partial (k := 3) (n := 2) (s := 0) (m := 10) (dx := 1 / 4) (by norm_num) (by decide) (by decide) (by decide)
  exact ⟨p, hp, (h 4 (by decide) (by decide)).trans (by decide +kernel), (h 6 (by decide) (by decide)).trans (by decide +kernel)⟩

/-- **C157.** The wave that follows the last whole one is missing: its first sample is opaque although it belongs to the free half, on every grid
with a whole wave that begins a wave. -/
theorem C157_square_false {k n m : Nat} {dx : ℚ} (hdx : 0 < dx) (hn : 0 < n) (hm : 2 * n < m) :
    ∃ p i, squareWave (waveGrid k n 0 m dx) ((n : ℚ) * dx) dx = .ok p ∧ i < m ∧ p.getD i 0 = 0 ∧ waveAt n 0 i = 1 := by
  refine ⟨_, 2 * n * ((m - 1) / (2 * n)), square_eq hdx hn (by omega) (by omega), ?_, ?_, ?_⟩
  · have := Nat.mul_div_le (m - 1) (2 * n)
    omega
  · have hle := Nat.mul_div_le (m - 1) (2 * n)
    have hN : 1 ≤ (m - 1) / (2 * n) := (Nat.one_le_div_iff (by omega)).mpr (by omega)
    generalize (m - 1) / (2 * n) = N at hle hN ⊢
    have hi : 2 * n * N < m := by omega
    rw [waves_at (by simpa [setSlice_length] using hi), setSlice_at (by simpa using hi), replicate_at hi, if_neg, if_neg]
    · rintro ⟨-, h⟩
      have : 2 * n * 1 ≤ 2 * n * N := Nat.mul_le_mul_left _ hN
      omega
    · rintro ⟨j, hj, h2, h3⟩
      obtain ⟨M, rfl⟩ : ∃ M, N = M + 1 := ⟨N - 1, by omega⟩
      have h4 : (2 * j + 1) * n = 2 * j * n + n := by ring
      have h5 : 2 * n * (M + 1) = 2 * M * n + 2 * n := by ring
      have h6 : 2 * j * n ≤ 2 * M * n := Nat.mul_le_mul_right _ (by omega)
      have h7 : 2 * (j + 1) * n ≤ 2 * M * n := Nat.mul_le_mul_right _ (by omega)
      have h8 : 2 * (j + 1) * n = 2 * j * n + 2 * n := by ring
      omega
  · rw [waveAt, Nat.add_zero, show 2 * n * ((m - 1) / (2 * n)) = n * (2 * ((m - 1) / (2 * n))) by ring, Nat.mul_div_cancel_left _ hn,
      Nat.mul_mod_right, if_pos rfl]

/-- Two whole waves and three samples more. -/
example : ∃ p i, squareWave (waveGrid 3 2 0 11 (1 / 4)) (((2 : ℕ) : ℚ) * (1 / 4)) (1 / 4) = .ok p ∧ i < 11 ∧ p.getD i 0 = 0 ∧ waveAt 2 0 i = 1 :=
  C157_square_false (by norm_num) (by decide) (by decide)

/-- **C157.** When the first radius lies within the opaque half of a wave, the model is displaced: the first sample of the next wave is opaque. -/
theorem C157_phase_false {k n s m : Nat} {dx : ℚ} (hdx : 0 < dx) (h1 : n < s) (h2 : s < 2 * n) (hm : 2 * n - s < m) :
    ∃ p, squareWave (waveGrid k n s m dx) ((n : ℚ) * dx) dx = .ok p ∧ p.getD (2 * n - s) 0 = 0 ∧ waveAt n s (2 * n - s) = 1 := by
  refine ⟨_, square_eq hdx (by omega) h2 (by omega), ?_, ?_⟩
  · rw [waves_at (by simpa [setSlice_length] using hm), setSlice_at (by simpa using hm), replicate_at hm, if_neg, if_neg (by omega)]
    rintro ⟨j, -, h3, -⟩
    have : 0 ≤ 2 * j * n := Nat.zero_le _
    omega
  · rw [waveAt, Nat.sub_add_cancel (by omega), Nat.mul_div_cancel _ (by omega), if_pos rfl]

/-- Four samples in half a wave, the first in the middle of the opaque half. -/
example : ∃ p, squareWave (waveGrid 3 4 6 40 1) (((4 : ℕ) : ℚ) * 1) 1 = .ok p ∧ p.getD 2 0 = 0 ∧ waveAt 4 6 2 = 1 :=
  C157_phase_false (by norm_num) (by decide) (by decide) (by decide)

end Verif.Fwd
