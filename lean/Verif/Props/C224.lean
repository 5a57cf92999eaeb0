import Verif.Model.DiffOpacity
import Mathlib.Tactic.Linarith
import Mathlib.Tactic.Ring
import Mathlib.Tactic.FieldSimp
import Mathlib.Tactic.NormNum
import Mathlib.Algebra.BigOperators.Group.List.Basic

/-!
# Differences of the optical depth between the bands (C224, C225, C226)
-/
namespace Verif.DOp
open Verif.Rsr

/-- The samples of a file with a number in the open interval around `c`, inside the feature. -/
def Spec.samples (rmin rmax b c : ℚ) (file : List (ℚ × Option ℚ)) : List ℚ :=
  file.filterMap fun s => if |s.1 - c| < b / 2 ∧ rmin < s.1 ∧ s.1 < rmax then s.2 else none

/-- `v` is the mean of the numbers: they deviate from it by 0 altogether; NaN when there is none. -/
def Spec.MeanOf (l : List ℚ) (v : Option ℚ) : Prop :=
  match v with
  | none => l = []
  | some m => l ≠ [] ∧ (l.map fun t => t - m).sum = 0

theorem inBin_iff (rmin rmax b c rho : ℚ) : inBin rmin rmax b c rho = true ↔ |rho - c| < b / 2 ∧ rmin < rho ∧ rho < rmax := by
  simp only [inBin, Bool.and_eq_true, decide_eq_true_eq, abs_lt]
  constructor
  · rintro ⟨⟨⟨h1, h2⟩, h3⟩, h4⟩
    exact ⟨⟨by linarith, by linarith⟩, h3, h4⟩
  · rintro ⟨⟨h1, h2⟩, h3, h4⟩
    exact ⟨⟨⟨by linarith, by linarith⟩, h3⟩, h4⟩

theorem samples_eq (rmin rmax b c : ℚ) (file : List (ℚ × Option ℚ)) :
    ((file.filter fun s => inBin rmin rmax b c s.1).map (·.2)).filterMap id = Spec.samples rmin rmax b c file := by
  induction file with
  | nil => rfl
  | cons s t ih =>
    simp only [Spec.samples] at ih ⊢
    by_cases h : inBin rmin rmax b c s.1 = true
    · rw [List.filter_cons_of_pos (p := fun s : ℚ × Option ℚ => inBin rmin rmax b c s.1) h, List.map_cons, List.filterMap_cons, List.filterMap_cons, if_pos ((inBin_iff ..).mp h), ih]
      rfl
    · rw [List.filter_cons_of_neg (p := fun s : ℚ × Option ℚ => inBin rmin rmax b c s.1) h, List.filterMap_cons, if_neg (fun h' => h ((inBin_iff ..).mpr h')), ih]

theorem sum_dev (l : List ℚ) (m : ℚ) : (l.map fun t => t - m).sum = l.sum - l.length * m := by
  induction l with
  | nil => simp
  | cons a t ih => simp only [List.map_cons, List.sum_cons, ih, List.length_cons]; push_cast; ring

theorem nanMean_spec (tau : List (Option ℚ)) : Spec.MeanOf (tau.filterMap id) (nanMean tau) := by
  unfold nanMean
  by_cases h : tau.all Option.isNone = true
  · rw [if_pos h]
    simp only [Spec.MeanOf, List.filterMap_eq_nil_iff]
    intro a ha
    simpa using List.all_eq_true.mp h a ha
  · rw [if_neg h]
    have hne : tau.filterMap id ≠ [] := by
      intro h0
      apply h
      rw [List.all_eq_true]
      intro a ha
      have := List.filterMap_eq_nil_iff.mp h0 a ha
      simpa using this
    refine ⟨hne, ?_⟩
    rw [sum_dev]
    have : ((tau.filterMap id).length : ℚ) ≠ 0 := by
      exact_mod_cast fun h => hne (List.length_eq_zero_iff.mp h)
    field_simp
    ring

/-- One value for every step of the bin size below the upper end, and it is the mean of the numbers less than half a bin from the middle of its bin. -/
theorem C224_bins (rmin rmax edge b : ℚ) (hb : 0 < b) (file : List (ℚ × Option ℚ)) (k : Nat) :
    (k < (binFile rmin rmax edge b file).length ↔ rmin + edge + k * b < rmax - edge) ∧
    ∀ v, (binFile rmin rmax edge b file)[k]? = some v → Spec.MeanOf (Spec.samples rmin rmax b (rmin + edge + k * b) file) v := by
  constructor
  · simp only [binFile, centres, List.length_map, List.length_range]
    rw [Int.lt_toNat, Int.lt_ceil, lt_div_iff₀ hb]
    push_cast
    constructor <;> intro h <;> linarith
  · intro v hv
    simp only [binFile, centres, List.getElem?_map, Option.map_eq_some_iff] at hv
    obtain ⟨c, ⟨j, hj, rfl⟩, rfl⟩ := hv
    have : j = k := by
      rw [List.getElem?_eq_some_iff] at hj
      obtain ⟨h, rfl⟩ := hj
      simp
    subst this
    rw [← samples_eq]
    exact nanMean_spec _

/-- Two bins of two samples each, one of them NaN, and one on the border. -/
example : binFile 0 80 0 40 [(10, some 1), (15, some 3), (20, some 9), (30, none), (50, some 2)] = [some 2, some 2] := by decide +kernel

/-- No sample is in two bins. -/
theorem C224_once (rmin rmax edge b : ℚ) (rho : ℚ) (j k : Nat)
    (hj : inBin rmin rmax b (rmin + edge + j * b) rho = true) (hk : inBin rmin rmax b (rmin + edge + k * b) rho = true) : j = k := by
  obtain ⟨h1, -⟩ := (inBin_iff ..).mp hj
  obtain ⟨h2, -⟩ := (inBin_iff ..).mp hk
  rw [abs_lt] at h1 h2
  have hb : 0 < b := by linarith [h1.1, h1.2]
  have e1 : ((j : ℚ) - k) * b < 1 * b := by linarith [h1.1, h2.2]
  have e2 : ((k : ℚ) - j) * b < 1 * b := by linarith [h1.2, h2.1]
  have e1 := lt_of_mul_lt_mul_right e1 hb.le
  have e2 := lt_of_mul_lt_mul_right e2 hb.le
  have e1 : (j : ℚ) < k + 1 := by linarith
  have e2 : (k : ℚ) < j + 1 := by linarith
  have e1 : j < k + 1 := by exact_mod_cast e1
  have e2 : k < j + 1 := by exact_mod_cast e2
  omega

example : inBin 0 80 40 (0 + 0 + (1 : Nat) * 40) 50 = true := by decide +kernel

/-- The radius is in one of the bins of the feature. -/
def Spec.Binned (rmin rmax edge b rho : ℚ) : Prop := ∃ k : Nat, rmin + edge + k * b < rmax - edge ∧ |rho - (rmin + edge + k * b)| < b / 2

/-- With no adjustment of the edges, every radius of the feature that is not on the border of two bins, and not in the last half bin, is in a bin. -/
theorem C226_covered_partial (rmin rmax b rho : ℚ) (hb : 0 < b) (h1 : rmin < rho) (h2 : rho < rmax - b / 2)
    (h3 : ∀ k : Nat, rho ≠ rmin + k * b + b / 2) : Spec.Binned rmin rmax 0 b rho := by
  set q := (rho - rmin) / b + 1 / 2 with hq
  have hq0 : 0 ≤ q := by
    have : 0 ≤ (rho - rmin) / b := div_nonneg (by linarith) hb.le
    linarith
  have e : q * b = rho - rmin + b / 2 := by rw [hq]; field_simp
  have l1 : ((⌊q⌋₊ : ℚ)) * b ≤ q * b := mul_le_mul_of_nonneg_right (Nat.floor_le hq0) hb.le
  have l2 : q * b < ((⌊q⌋₊ : ℚ) + 1) * b := mul_lt_mul_of_pos_right (Nat.lt_floor_add_one q) hb
  have l3 : ((⌊q⌋₊ : ℚ)) * b ≠ q * b := by
    intro h
    rcases Nat.eq_zero_or_pos ⌊q⌋₊ with h0 | h0
    · rw [h0] at h; push_cast at h; linarith
    · apply h3 (⌊q⌋₊ - 1)
      rw [Nat.cast_sub h0]
      push_cast
      linarith
  have l1 : ((⌊q⌋₊ : ℚ)) * b < q * b := lt_of_le_of_ne l1 l3
  exact ⟨⌊q⌋₊, by linarith, by rw [abs_lt]; constructor <;> linarith⟩

example : Spec.Binned 124000 128000 0 40 127975 := C226_covered_partial _ _ _ _ (by norm_num) (by norm_num) (by norm_num) (by
  intro k h
  have : (99 : ℚ) < k + 1 / 2 ∧ (k : ℚ) + 1 / 2 < 100 := by constructor <;> linarith
  have h1 : (98 : ℚ) < k := by linarith
  have h2 : (k : ℚ) < 100 := by linarith
  have h1 : 98 < k := by exact_mod_cast h1
  have h2 : k < 100 := by exact_mod_cast h2
  have : k = 99 := by omega
  subst this
  norm_num at h)

/-- Not every radius of a feature is in a bin: in the inner A ring, 124000 to 128000 km with bins of 40 km, neither 127990 km nor 124020 km is. -/
theorem C226_covered_false : ∃ rmin rmax b rho rho' : ℚ, 0 < b ∧ rmin < rho ∧ rho < rmax ∧ rmin < rho' ∧ rho' < rmax - b ∧
    ¬ Spec.Binned rmin rmax 0 b rho ∧ ¬ Spec.Binned rmin rmax 0 b rho' := by
  refine ⟨124000, 128000, 40, 127990, 124020, by norm_num, by norm_num, by norm_num, by norm_num, by norm_num, ?_, ?_⟩
  · rintro ⟨k, h1, h2⟩
    rw [abs_lt] at h2
    have h1 : (k : ℚ) < 100 := by linarith
    have h2 : (99 : ℚ) < k := by linarith
    have h1 : k < 100 := by exact_mod_cast h1
    have h2 : 99 < k := by exact_mod_cast h2
    omega
  · rintro ⟨k, h1, h2⟩
    rw [abs_lt] at h2
    have h1 : (k : ℚ) < 1 := by linarith
    have h2 : (0 : ℚ) < k := by linarith
    have h1 : k < 1 := by exact_mod_cast h1
    have h2 : 0 < k := by exact_mod_cast h2
    omega

/-- The values of the files of one band, file after file. -/
def Spec.bandVals (vals : List (ℚ × Option ℚ) → List (Option ℚ)) (files : List (List Char × List (ℚ × Option ℚ))) (d : Band) : List (List (Option ℚ)) :=
  (files.filter fun f => bandOf f.1 = some d).map fun f => vals f.2

theorem store_step (acc v : List (Option ℚ)) (n : Nat) (ha : ∀ a ∈ acc, a.isSome) (hf : v.length ≤ n) :
    store (acc ++ List.replicate n none) v = .ok (acc ++ v ++ List.replicate (n - v.length) none) := by
  unfold store
  by_cases hv : v.length = 0
  · rw [if_pos hv, List.length_eq_zero_iff.mp hv]
    simp
  · rw [if_neg hv]
    have hna : acc.findIdx? Option.isNone = none := by
      rw [List.findIdx?_eq_none_iff]
      intro a h
      have := ha a h
      cases a with
      | none => simp at this
      | some _ => rfl
    have : firstNan (acc ++ List.replicate n none) = some acc.length := by
      obtain ⟨m, rfl⟩ := Nat.exists_eq_succ_of_ne_zero (show n ≠ 0 by omega)
      rw [firstNan, List.findIdx?_append, hna, List.replicate_succ]
      simp [List.findIdx?_cons]
    simp only [this, List.length_append, List.length_replicate]
    rw [if_pos (by omega), List.take_left' rfl, List.drop_append, List.drop_eq_nil_of_le (by omega), List.drop_replicate, List.nil_append]
    congr 3
    omega

theorem fill_step (vals : List (ℚ × Option ℚ) → List (Option ℚ)) (files : List (List Char × List (ℚ × Option ℚ))) (acc : Rows) (n : Band → Nat)
    (ha : ∀ d, ∀ a ∈ acc d, a.isSome) (hv : ∀ f ∈ files, bandOf f.1 ≠ none → ∀ a ∈ vals f.2, a.isSome)
    (hn : ∀ d, (Spec.bandVals vals files d).flatten.length ≤ n d) :
    files.foldlM (fun t f => put t f.1 (vals f.2)) (fun d => acc d ++ List.replicate (n d) none) =
      .ok fun d => acc d ++ (Spec.bandVals vals files d).flatten ++ List.replicate (n d - (Spec.bandVals vals files d).flatten.length) none := by
  induction files generalizing acc n with
  | nil => simp [Spec.bandVals, pure, Except.pure]
  | cons f fs ih =>
    rw [List.foldlM_cons]
    cases hb : bandOf f.1 with
    | none =>
      have e : ∀ d, Spec.bandVals vals (f :: fs) d = Spec.bandVals vals fs d := by
        intro d
        simp [Spec.bandVals, hb]
      simp only [e] at hn ⊢
      rw [show put (fun d => acc d ++ List.replicate (n d) none) f.1 (vals f.2) = .ok (fun d => acc d ++ List.replicate (n d) none) by simp only [put, hb]]
      exact ih acc n ha (fun g hg => hv g (List.mem_cons_of_mem _ hg)) hn
    | some d =>
      have e : Spec.bandVals vals (f :: fs) d = vals f.2 :: Spec.bandVals vals fs d := by
        simp [Spec.bandVals, hb]
      have e' : ∀ c, c ≠ d → Spec.bandVals vals (f :: fs) c = Spec.bandVals vals fs c := by
        intro c hc
        have : ¬ d = c := fun h => hc h.symm
        simp [Spec.bandVals, hb, this]
      have hd := hn d
      rw [e, List.flatten_cons, List.length_append] at hd
      have hp : put (fun d => acc d ++ List.replicate (n d) none) f.1 (vals f.2) =
          .ok (fun c => (if c = d then acc c ++ vals f.2 else acc c) ++ List.replicate (if c = d then n c - (vals f.2).length else n c) none) := by
        simp only [put, hb]
        rw [store_step _ _ _ (ha d) (by omega)]
        simp only [bind, Except.bind, pure, Except.pure]
        congr 1
        funext c
        by_cases hc : c = d
        · subst hc; simp
        · simp [hc]
      rw [hp]
      have key := ih (fun c => if c = d then acc c ++ vals f.2 else acc c) (fun c => if c = d then n c - (vals f.2).length else n c) ?_ ?_ ?_
      · refine key.trans ?_
        congr 1
        funext c
        by_cases hc : c = d
        · subst hc
          simp only [if_true, e, List.flatten_cons, List.append_assoc, List.length_append]
          congr 4
          omega
        · simp only [hc, if_false, e' c hc]
      · intro c a h
        by_cases hc : c = d
        · subst hc
          simp only [if_true, List.mem_append] at h
          rcases h with h | h
          · exact ha c a h
          · exact hv f List.mem_cons_self (by simp [hb]) a h
        · simp only [hc, if_false] at h
          exact ha c a h
      · exact fun g hg => hv g (List.mem_cons_of_mem _ hg)
      · intro c
        by_cases hc : c = d
        · subst hc; simp only [if_true]; omega
        · simp only [hc, if_false]; rw [← e' c hc]; exact hn c

theorem flatten_getElem {α : Type} (nb : Nat) (L : List (List α)) (hL : ∀ l ∈ L, l.length = nb) (j k : Nat) (hk : k < nb) :
    L.flatten[j * nb + k]? = L[j]?.bind fun l => l[k]? := by
  induction L generalizing j with
  | nil => simp
  | cons l t ih =>
    have hl := hL l List.mem_cons_self
    cases j with
    | zero => simp [List.getElem?_append_left (show 0 * nb + k < l.length by omega)]; rw [List.getElem?_append_left (by omega)]
    | succ j =>
      rw [List.flatten_cons, List.getElem?_append_right (by rw [hl]; nlinarith), hl, List.getElem?_cons_succ,
        ← ih (fun x hx => hL x (List.mem_cons_of_mem _ hx)) j]
      congr 1
      rw [Nat.succ_mul]; omega

/-- What is in column `j * nb + k` of a row: bin `k` of file `j` of the band, when there are `nb` bins. -/
def Spec.Placed (nb : Nat) (vals : List (List (Option ℚ))) (row : List (Option ℚ)) : Prop :=
  ∀ j k v l, k < nb → vals[j]? = some l → l[k]? = some v → row[j * nb + k]? = some v

theorem binFile_length (rmin rmax edge b : ℚ) (file file' : List (ℚ × Option ℚ)) : (binFile rmin rmax edge b file).length = (binFile rmin rmax edge b file').length := by
  simp [binFile]

/-- When every bin of every file has a number and all fit into the table, each band has in every column the bin and the file that the other bands have there too. -/
theorem C225_aligned_partial (nmax : Nat) (rmin rmax edge b : ℚ) (files : List (List Char × List (ℚ × Option ℚ)))
    (hv : ∀ f ∈ files, bandOf f.1 ≠ none → ∀ a ∈ binFile rmin rmax edge b f.2, a.isSome)
    (hn : ∀ d, (Spec.bandVals (binFile rmin rmax edge b) files d).flatten.length ≤ nmax) :
    ∃ t, fillAll nmax rmin rmax edge b files = .ok t ∧
      ∀ d, Spec.Placed (binFile rmin rmax edge b []).length (Spec.bandVals (binFile rmin rmax edge b) files d) (t d) := by
  have h := fill_step (binFile rmin rmax edge b) files (fun _ => []) (fun _ => nmax) (by simp) hv hn
  refine ⟨_, h, fun d j k v l hk hl hkv => ?_⟩
  have e := flatten_getElem (binFile rmin rmax edge b []).length (Spec.bandVals (binFile rmin rmax edge b) files d) (by
    intro l hl
    simp only [Spec.bandVals, List.mem_map] at hl
    obtain ⟨f, -, rfl⟩ := hl
    exact binFile_length ..) j k hk
  rw [hl] at e
  simp only [Option.bind_some, hkv] at e
  simp only [List.nil_append]
  rw [List.getElem?_append_left]
  · exact e
  · exact (List.getElem?_eq_some_iff.mp e).1

/-- So a column of the differences is that of the same bin of the files at the same place among those of the bands K and X, in percent of X. -/
theorem C225_difference_partial (nmax : Nat) (rmin rmax edge b : ℚ) (files : List (List Char × List (ℚ × Option ℚ)))
    (hv : ∀ f ∈ files, bandOf f.1 ≠ none → ∀ a ∈ binFile rmin rmax edge b f.2, a.isSome)
    (hn : ∀ d, (Spec.bandVals (binFile rmin rmax edge b) files d).flatten.length ≤ nmax)
    (j k : Nat) (lk lx : List (Option ℚ)) (a x : ℚ) (hx : x ≠ 0) (h1 : (Spec.bandVals (binFile rmin rmax edge b) files .k)[j]? = some lk)
    (h2 : (Spec.bandVals (binFile rmin rmax edge b) files .x)[j]? = some lx) (h3 : lk[k]? = some (some a)) (h4 : lx[k]? = some (some x)) :
    ∃ t d, fillAll nmax rmin rmax edge b files = .ok t ∧ dtKX t (j * (binFile rmin rmax edge b []).length + k) = some d ∧ a = x * (1 + d / 100) := by
  obtain ⟨t, ht, hp⟩ := C225_aligned_partial nmax rmin rmax edge b files hv hn
  have hk : k < (binFile rmin rmax edge b []).length := by
    have := (List.getElem?_eq_some_iff.mp h3).1
    have hm := List.mem_of_getElem? h1
    simp only [Spec.bandVals, List.mem_map] at hm
    obtain ⟨f, -, rfl⟩ := hm
    rwa [binFile_length rmin rmax edge b f.2 []] at this
  have p1 := hp .k j k _ lk hk h1 h3
  have p2 := hp .x j k _ lx hk h2 h4
  refine ⟨t, 100 * (a - x) / x, ht, ?_, ?_⟩
  · simp only [dtKX, List.getD_eq_getElem?_getD, p1, p2, Option.getD_some, if_neg hx]
  · field_simp
    ring

/-- Two files of the band K and one of X, each of two bins. -/
def opFiles (hole : Option ℚ) : List (List Char × List (ℚ × Option ℚ)) :=
  [("RSS_2005_123_K34_E_TAU_01KM.TAB".toList, [(5, some 1), (35, hole), (50, some 3)]),
   ("RSS_2005_123_X34_E_TAU_01KM.TAB".toList, [(5, some 2), (50, some 4)]),
   ("RSS_2005_141_K26_E_TAU_01KM.TAB".toList, [(5, some 5), (50, some 6)])]

example : (fillAll 6 0 80 0 40 (opFiles (some 5))).toOption.map (fun t => (t .k, t .x, dtKX t 1)) =
    some ([some 1, some 4, some 5, some 6, none, none], [some 2, some 4, none, none, none, none], some 0) := by decide +kernel

/-- A bin without a number is taken for the end of what is stored: the next file of the band is written over the first. -/
theorem C225_aligned_false : ∃ (nmax : Nat) (rmin rmax edge b : ℚ) (files : List (List Char × List (ℚ × Option ℚ))) (t : Rows) (d : Band),
    (∀ d, (Spec.bandVals (binFile rmin rmax edge b) files d).flatten.length ≤ nmax) ∧ fillAll nmax rmin rmax edge b files = .ok t ∧
    ¬ Spec.Placed (binFile rmin rmax edge b []).length (Spec.bandVals (binFile rmin rmax edge b) files d) (t d) := by
  have h : (fillAll 6 0 80 0 40 [("_K".toList, [(5, none), (50, some 3)]), ("_K".toList, [(5, some 5), (50, some 6)])]).toOption.map (fun t => t .k) =
      some [some 5, some 6, none, none, none, none] := by decide +kernel
  cases ht : fillAll 6 0 80 0 40 [("_K".toList, [(5, none), (50, some 3)]), ("_K".toList, [(5, some 5), (50, some 6)])] with
  | error e => rw [ht] at h; cases h
  | ok t =>
    rw [ht] at h
    simp only [Except.toOption, Option.map_some, Option.some.injEq] at h
    refine ⟨6, 0, 80, 0, 40, _, t, .k, ?_, ht, fun H => ?_⟩
    · intro d; cases d <;> decide +kernel
    · have := H 0 1 (some 3) [none, some 3] (by decide +kernel) (by decide +kernel) rfl
      rw [h] at this
      revert this
      decide +kernel

end Verif.DOp
