import Verif.Model.Spectro
import Verif.Props.C104

/-!
# C111: spectrogram
-/
namespace Verif.Spc
open Verif.Rsr

theorem steps_bins {J n : Nat} (hn : 0 < n) : steps (J - n) n = (List.range ((J - 1) / n)).map fun b => b * n := by
  have h : (J - n + n - 1) / n = (J - 1) / n := by
    rcases le_total n J with h | h
    · rw [Nat.sub_add_cancel h]
    · rw [Nat.sub_eq_zero_of_le h, Nat.zero_add, Nat.div_eq_of_lt (by omega), Nat.div_eq_of_lt (by omega)]
  rw [steps, h]

theorem bin_within {J n b : Nat} (h : b < (J - 1) / n) : b * n + n < J := by
  have h1 : (b + 1) * n ≤ (J - 1) / n * n := Nat.mul_le_mul_right n h
  have h2 : (J - 1) / n * n ≤ J - 1 := Nat.div_mul_le_self _ _
  have h3 : (b + 1) * n = b * n + n := by ring
  have hJ : 0 < J := by
    rcases Nat.eq_zero_or_pos J with rfl | h0
    · simp at h
    · exact h0
  omega

/-- The array is divided into groups of `n` columns from the start, `(J - 1) / n` of them for `J` columns; each column of the result is
the sum over a group, and its time is the one in the middle of the group. -/
theorem C111_stack {rows n : Nat} (hn : 0 < n) {time : List ℚ} {cols : List (List ℚ)} (hl : cols.length = time.length) :
    ∃ (t : List ℚ) (s : List (List ℚ)), stackSpec rows time cols n = .ok (t, s) ∧
      t.length = (time.length - 1) / n ∧ s.length = (time.length - 1) / n ∧
      ∀ b < (time.length - 1) / n, t.getD b 0 = time.getD (b * n + n / 2) 0 ∧ b * n + n / 2 < time.length ∧
        (s.getD b []).length = rows ∧
        ∀ r < rows, (s.getD b []).getD r 0 = ∑ j ∈ Finset.range n, (cols.getD (b * n + j) []).getD r 0 := by
  have hcol : ∀ i ∈ steps (time.length - n) n, stackColumn rows cols n i =
      .ok ((List.range rows).map fun r => ((List.range n).map fun j => (cols.getD (i + j) []).getD r 0).sum) := by
    intro i hi
    rw [steps_bins hn] at hi
    obtain ⟨b, hb, rfl⟩ := List.mem_map.mp hi
    have := bin_within (List.mem_range.mp hb)
    rw [stackColumn, if_neg (by omega)]
  have hm : (steps (time.length - n) n).mapM (fun i => stackColumn rows cols n i) =
      .ok ((steps (time.length - n) n).map fun i => (List.range rows).map fun r =>
        ((List.range n).map fun j => (cols.getD (i + j) []).getD r 0).sum) := by
    generalize steps (time.length - n) n = l at hcol
    induction l with
    | nil => rfl
    | cons i l ih =>
      rw [List.mapM_cons, hcol i List.mem_cons_self, ih fun j hj => hcol j (List.mem_cons_of_mem _ hj)]
      rfl
  refine ⟨(steps (time.length - n) n).map fun i => time.getD (i + n / 2) 0,
    (steps (time.length - n) n).map fun i => (List.range rows).map fun r =>
        ((List.range n).map fun j => (cols.getD (i + j) []).getD r 0).sum, ?_, ?_, ?_, ?_⟩
  · rw [stackSpec, if_neg (by omega), hm]; rfl
  · rw [steps_bins hn]; simp
  · rw [steps_bins hn]; simp
  · intro b hb
    have hw := bin_within hb
    have h2 : n / 2 ≤ n := Nat.div_le_self _ _
    rw [steps_bins hn]
    refine ⟨?_, by omega, ?_, ?_⟩
    · simp [List.getD_eq_getElem?_getD, hb]
    · simp [List.getD_eq_getElem?_getD, hb]
    · intro r hr
      rw [← Verif.Cal.list_sum_range]
      simp [List.getD_eq_getElem?_getD, hb, hr]

example : stackSpec 2 [0, 1, 2, 3, 4] [[1, 10], [2, 20], [3, 30], [4, 40], [5, 50]] 2 = .ok ([1, 3], [[3, 30], [7, 70]]) := by
  decide +kernel

/-- All complete groups are used if the number of columns is not a multiple of the size of the groups. -/
theorem C111_groups_partial {n J : Nat} (hn : 0 < n) (h : ¬ n ∣ J) : (J - 1) / n = J / n := by
  have hr : 0 < J % n := Nat.pos_of_ne_zero fun h0 => h (Nat.dvd_of_mod_eq_zero h0)
  have hd := Nat.div_add_mod J n
  have hl := Nat.mod_lt J hn
  have e : J - 1 = J % n - 1 + n * (J / n) := by omega
  rw [e, Nat.add_mul_div_left _ _ hn, Nat.div_eq_of_lt (by omega), Nat.zero_add]

/-- If the number of columns is a multiple, the last group is missing; one group gives an empty result. -/
theorem C111_groups_false {rows n k : Nat} (hn : 0 < n) {time : List ℚ} {cols : List (List ℚ)} (hl : cols.length = time.length)
    (hk : time.length = (k + 1) * n) : ∃ r, stackSpec rows time cols n = .ok r ∧ r.1.length = k ∧ r.2.length = k := by
  obtain ⟨t, s, h, ht, hs, -⟩ := C111_stack (rows := rows) hn hl
  have e : (time.length - 1) / n = k := by
    have : (k + 1) * n = k * n + n := by ring
    rw [hk, show (k + 1) * n - 1 = n - 1 + n * k by rw [mul_comm n k]; omega, Nat.add_mul_div_left _ _ hn,
      Nat.div_eq_of_lt (by omega), Nat.zero_add]
  exact ⟨_, h, ht.trans e, hs.trans e⟩

example : stackSpec 1 [0, 1] [[1], [2]] 2 = .ok ([], []) := by decide +kernel

/-- The size 0 is refused. -/
theorem C111_size (rows : Nat) (time : List ℚ) (cols : List (List ℚ)) : stackSpec rows time cols 0 = .error .value := rfl

/-- The frequencies of the result do not rise, and every row stays with its frequency, which has changed its sign; the values of a row
are the squares of the magnitudes. -/
theorem C111_sort {f : List ℚ} {rows : List (List ℚ)} :
    (sortSpec f rows).1.Pairwise (fun a b => b ≤ a) ∧
    ((sortSpec f rows).1.zip (sortSpec f rows).2).Perm ((f.zip rows).map fun p => (-p.1, p.2.map fun x => x * x)) ∧
    (sortSpec f rows).1.length = (sortSpec f rows).2.length := by
  have hp := List.mergeSort_perm (f.zip rows) fun a b => decide (a.1 ≤ b.1)
  refine ⟨?_, ?_, by simp [sortSpec]⟩
  · have := List.pairwise_mergeSort (le := fun a b : ℚ × List ℚ => decide (a.1 ≤ b.1)) (by
      intro a b c h1 h2
      simp only [decide_eq_true_eq] at *
      exact h1.trans h2) (by
      intro a b
      simp only [Bool.or_eq_true, decide_eq_true_eq]
      exact le_total _ _) (f.zip rows)
    simp only [sortSpec, List.pairwise_map]
    exact this.imp fun h => neg_le_neg (by simpa using h)
  · have e : (sortSpec f rows).1.zip (sortSpec f rows).2 =
        ((f.zip rows).mergeSort fun a b => decide (a.1 ≤ b.1)).map fun p => (-p.1, p.2.map fun x => x * x) := by
      simp only [sortSpec]
      rw [List.zip_map']
      simp [sq_abs, sq]
    rw [e]
    exact hp.map _

example : sortSpec [0, 1, -1] [[5], [-6], [7]] = ([1, 0, -1], [[49], [25], [36]]) := by
  norm_num [sortSpec, List.mergeSort, List.MergeSort.Internal.splitInTwo, List.merge]

/-- For `n` samples at equal distances `dt` the sampling frequency used is `n / (n - 1)` times the true one, `1 / dt`. -/
theorem C111_rate_false {t0 dt : ℚ} (h : 0 < dt) {n : Nat} (hn : 2 ≤ n) :
    ∃ r, sampleRate ((List.range n).map fun i : Nat => t0 + dt * (i : ℚ)) = .ok r ∧ r = 1 / dt * (n / (n - 1)) ∧ 1 / dt < r := by
  have h1 : (2 : ℚ) ≤ n := by exact_mod_cast hn
  have e : ((List.range n).map fun i : Nat => t0 + dt * (i : ℚ)).getD (n - 1) 0 - ((List.range n).map fun i : Nat => t0 + dt * (i : ℚ)).getD 0 0 =
      dt * (n - 1) := by
    rw [List.getD_eq_getElem?_getD, List.getD_eq_getElem?_getD, List.getElem?_eq_getElem (by simp; omega), List.getElem?_eq_getElem (by simp; omega)]
    simp only [List.getElem_map, List.getElem_range, Option.getD_some, Nat.cast_zero]
    rw [Nat.cast_sub (by omega)]
    push_cast
    ring
  have hp : 0 < dt * ((n : ℚ) - 1) := mul_pos h (by linarith)
  refine ⟨n / (dt * (n - 1)), ?_, ?_, ?_⟩
  · unfold sampleRate
    rw [if_neg (by
      intro h0
      have := congrArg List.length h0
      simp at this
      omega)]
    simp only [List.length_map, List.length_range, e]
    rw [if_neg hp.ne']
  · rw [div_mul_div_comm, one_mul]
  · rw [div_lt_div_iff₀ h hp]
    nlinarith

example : sampleRate [0, 1] = .ok 2 := by decide +kernel

/-- Without options, or with a number of points of at most 1000, the segments fit into the data. -/
theorem C111_options_partial (len : Nat) (numpts nsegs : Option Nat) (h : ∀ p, numpts = some p → p ≤ 1000) :
    (hiresOptions len numpts nsegs).1 * (hiresOptions len numpts nsegs).2 ≤ len := by
  have hnp : ∃ np, (hiresOptions len numpts nsegs).1 = np ∧ np ≤ 1000 ∧ (hiresOptions len numpts nsegs).2 =
      match nsegs with
      | none => len / 1000
      | some s => if len < s * np then len / 1000 else s := by
    refine ⟨_, rfl, ?_, rfl⟩
    unfold hiresOptions
    cases numpts with
    | none => exact le_rfl
    | some p =>
      simp only
      split
      · exact le_rfl
      · exact h p rfl
  obtain ⟨np, h1, h2, h3⟩ := hnp
  rw [h1, h3]
  have hd : np * (len / 1000) ≤ len := (Nat.mul_le_mul_right _ h2).trans (by rw [mul_comm]; exact Nat.div_mul_le_self _ _)
  cases nsegs with
  | none => exact hd
  | some s =>
    simp only
    split
    · exact hd
    · rw [mul_comm]; omega

example : hiresOptions 12345 (some 500) (some 100) = (500, 12) := by decide

/-- A requested length of segments is kept if and only if ten segments fit; otherwise it is 1000. -/
theorem C111_length (len p : Nat) (nsegs : Option Nat) : (10 * p ≤ len → (hiresOptions len (some p) nsegs).1 = p) ∧
    (len < 10 * p → (hiresOptions len (some p) nsegs).1 = 1000) := by
  simp only [hiresOptions]
  constructor
  · intro h; rw [if_neg (by omega)]
  · intro h; rw [if_pos (by omega)]

example : 10 * 1234 ≤ 12345 ∧ (hiresOptions 12345 (some 1234) none).1 = 1234 ∧ 12345 < 10 * 1235 ∧
    (hiresOptions 12345 (some 1235) none).1 = 1000 := by decide

/-- With more points the corrected number of segments can be too great. -/
theorem C111_options_false : ¬ ∀ (len : Nat) (numpts nsegs : Option Nat),
    (hiresOptions len numpts nsegs).1 * (hiresOptions len numpts nsegs).2 ≤ len := by
  intro h
  exact absurd (h 20000 (some 2000) (some 11)) (by decide)

/-- The transform of high resolution never ends normally with the options that are chosen for at least 1000 samples and none requested. -/
theorem C111_hires_false {len : Nat} (h : 1000 ≤ len) (numpts : Option Nat) :
    contStft (hiresOptions len numpts none).2 = .error .name := by
  have : len / 1000 ≠ 0 := by omega
  simp [hiresOptions, contStft, this]

/-- The header calls the step of the frequencies `Delta t (sec)` and that of the times `Delta f (Hz)`. -/
theorem C111_header_false : ∃ f t : List ℚ, header f t =
    [("f0 (Hz)", 0), ("n_freq", 2), ("Delta t (sec)", -50), ("t0 (SPM)", 7), ("n_time", 4), ("Delta f (Hz)", 3 / 4)] := by
  refine ⟨[0, -100], [7, 8, 9, 10], ?_⟩
  norm_num [header]

end Verif.Spc
