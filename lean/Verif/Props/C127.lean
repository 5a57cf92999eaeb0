import Verif.Model.Version
import Verif.Props.C126

/-!
# C127 Version numbers of merged files
-/
namespace Verif.Out
open Verif.Rsr

namespace Spec

/-- The path with the number `m`, in four digits or more. -/
def numbered (pre ext : List Char) (m : Nat) : List Char :=
  pre ++ (List.replicate (4 - (decimal m).length) '0' ++ decimal m) ++ ext

end Spec
open Verif.Out.Spec

theorem zfill4 (m : Nat) : zfillInt 4 m = List.replicate (4 - (decimal m).length) '0' ++ decimal m := by
  rw [zfillInt, if_neg (by omega), Int.natAbs_natCast]

theorem zfill4_length {m : Nat} (h : m < 10000) : (zfillInt 4 m).length = 4 := by
  obtain ⟨-, -, h3, h4⟩ := zfill_padded (w := 4) (by norm_num) m
  by_contra hc
  have := h4 (by omega)
  omega

theorem zfill4_long {m : Nat} (h : 10000 ≤ m) : 5 ≤ (zfillInt 4 m).length := by
  rw [zfill4, List.length_append]
  have := length_decimal (n := m) (k := 4) (by omega)
  omega

theorem next_of {pre ext : List Char} {a b : Nat} (ha : a < 10000) :
    nextName (pre.length + 8) (numbered pre ext a) b = numbered pre ext b := by
  have h1 := zfill4_length ha
  rw [zfill4] at h1
  rw [nextName, numbered, numbered, zfill4, show pre.length + 8 - 8 = pre.length by omega,
    show pre.length + 8 - 4 = pre.length + 4 by omega]
  have e1 : (pre ++ (List.replicate (4 - (decimal a).length) '0' ++ decimal a) ++ ext).take pre.length = pre := by
    rw [List.append_assoc, List.take_left]
  have e2 : (pre ++ (List.replicate (4 - (decimal a).length) '0' ++ decimal a) ++ ext).drop (pre.length + 4) = ext := by
    have : pre.length + 4 = (pre ++ (List.replicate (4 - (decimal a).length) '0' ++ decimal a)).length := by
      rw [List.length_append, h1]
    rw [this, List.drop_left]
  rw [e1, e2]

theorem numbered_length {pre ext : List Char} (he : ext.length = 4) {a : Nat} (ha : a < 10000) :
    (numbered pre ext a).length = pre.length + 8 := by
  have h1 := zfill4_length ha
  rw [zfill4] at h1
  rw [numbered, List.length_append, List.length_append, h1]
  omega

theorem verLoop_next (ex : List Char → Bool) {pre ext : List Char} : ∀ (k fuel a : Nat), k < fuel → a + k < 10000 →
    (∀ j < k, ex (numbered pre ext (a + j)) = true) → ex (numbered pre ext (a + k)) = false →
      verLoop ex (pre.length + 8) fuel a (numbered pre ext a) = some (numbered pre ext (a + k)) := by
  intro k
  induction k with
  | zero =>
    intro fuel a hf ha _ h
    obtain ⟨f, rfl⟩ : ∃ f, fuel = f + 1 := ⟨fuel - 1, by omega⟩
    rw [verLoop, if_neg (by rw [Nat.add_zero] at h; rw [h]; decide), Nat.add_zero]
  | succ k ih =>
    intro fuel a hf ha hex h
    obtain ⟨f, rfl⟩ : ∃ f, fuel = f + 1 := ⟨fuel - 1, by omega⟩
    have h0 := hex 0 (by omega)
    rw [Nat.add_zero] at h0
    rw [verLoop, if_pos h0, next_of (by omega), ih f (a + 1) (by omega) (by omega) ?_ ?_, show a + 1 + k = a + (k + 1) by omega]
    · intro j hj
      rw [show a + 1 + j = a + (j + 1) by omega]
      exact hex (j + 1) (by omega)
    · rw [show a + 1 + k = a + (k + 1) by omega]
      exact h

theorem version_read {pre ext : List Char} (he : ext.length = 4) {a : Nat} (ha : a < 10000) :
    pyIntDigits (((numbered pre ext a).drop ((numbered pre ext a).length - 8)).take 4) = .ok a := by
  have h1 := zfill4_length ha
  obtain ⟨p1, p2, -, -⟩ := zfill_padded (w := 4) (by norm_num) a
  rw [zfill4] at h1 p1 p2
  rw [numbered_length he ha, show pre.length + 8 - 8 = pre.length by omega, numbered, List.append_assoc, List.drop_left]
  have e : ((List.replicate (4 - (decimal a).length) '0' ++ decimal a) ++ ext).take 4 =
      List.replicate (4 - (decimal a).length) '0' ++ decimal a := by
    exact List.take_left' h1
  have hne : List.replicate (4 - (decimal a).length) '0' ++ decimal a ≠ [] := by
    intro hc
    rw [hc] at h1
    cases h1
  rw [e, pyIntDigits, if_pos ⟨hne, p1⟩, p2]

/-- **C127**, the next version: the result has the smallest number from that of the given path on whose path does not exist, with
everything else unchanged.  Partial: this number must be below 10000. -/
theorem C127_version_partial (ex : List Char → Bool) {pre ext : List Char} (he : ext.length = 4) {a k fuel : Nat} (hk : a + k < 10000)
    (hex : ∀ j < k, ex (numbered pre ext (a + j)) = true) (hfree : ex (numbered pre ext (a + k)) = false) (hf : k < fuel) :
    updateVersion ex (numbered pre ext a) fuel = .ok (some (numbered pre ext (a + k))) := by
  simp only [updateVersion, version_read he (show a < 10000 by omega), bind, Except.bind]
  rw [numbered_length he (show a < 10000 by omega), verLoop_next ex k fuel a hf hk hex hfree]

/-- **C127**, nothing is overwritten: the result never exists. -/
theorem C127_free (ex : List Char → Bool) {path new : List Char} {fuel : Nat} (h : updateVersion ex path fuel = .ok (some new)) :
    ex new = false := by
  have key : ∀ (fuel lenf v : Nat) (p : List Char), verLoop ex lenf fuel v p = some new → ex new = false := by
    intro fuel lenf
    induction fuel with
    | zero => intro v p hp; cases hp
    | succ f ih =>
      intro v p hp
      rw [verLoop] at hp
      split at hp
      · exact ih _ _ hp
      · cases hp
        exact Bool.eq_false_iff.2 ‹_›
  unfold updateVersion at h
  cases e : pyIntDigits ((path.drop (path.length - 8)).take 4) with
  | error x => rw [e] at h; cases h
  | ok v =>
    rw [e] at h
    simp only [bind, Except.bind, Except.ok.injEq] at h
    exact key _ _ _ _ h

theorem next_length {lenf : Nat} {new : List Char} {v : Nat} (hv : 10000 ≤ v) (h8 : 8 ≤ lenf) (hl : lenf ≤ new.length) :
    new.length + 1 ≤ (nextName lenf new v).length := by
  have := zfill4_long hv
  simp only [nextName, List.length_append, List.length_take, List.length_drop]
  omega

theorem next_length' {lenf : Nat} {new : List Char} {v : Nat} (h8 : 8 ≤ lenf) (hl : lenf ≤ new.length) :
    new.length ≤ (nextName lenf new v).length := by
  obtain ⟨-, -, h3, -⟩ := zfill_padded (w := 4) (by norm_num) v
  simp only [nextName, List.length_append, List.length_take, List.length_drop]
  omega

theorem verLoop_long {ex : List Char → Bool} {B lenf : Nat} (hB : ∀ p, ex p = true → p.length ≤ B) (h8 : 8 ≤ lenf) : ∀ (m v : Nat)
    (new : List Char), B < new.length + m → 9999 ≤ v → lenf ≤ new.length → ∃ fuel r, verLoop ex lenf fuel v new = some r := by
  intro m
  induction m with
  | zero =>
    intro v new hm _ _
    have : ex new = false := by
      by_contra hc
      have := hB new (by simpa using hc)
      omega
    exact ⟨1, new, by rw [verLoop, if_neg (by rw [this]; decide)]⟩
  | succ m ih =>
    intro v new hm hv hl
    by_cases hc : ex new = true
    · have h1 := next_length (v := v + 1) (by omega) h8 hl
      obtain ⟨fuel, r, h⟩ := ih (v + 1) (nextName lenf new (v + 1)) (by omega) (by omega) (by omega)
      exact ⟨fuel + 1, r, by rw [verLoop, if_pos hc, h]⟩
    · exact ⟨1, new, by rw [verLoop, if_neg hc]⟩

theorem verLoop_ends {ex : List Char → Bool} {B lenf : Nat} (hB : ∀ p, ex p = true → p.length ≤ B) (h8 : 8 ≤ lenf) : ∀ (m v : Nat)
    (new : List Char), 9999 ≤ v + m → lenf ≤ new.length → ∃ fuel r, verLoop ex lenf fuel v new = some r := by
  intro m
  induction m with
  | zero =>
    intro v new hm hl
    exact verLoop_long hB h8 (B + 1) v new (by omega) (by omega) hl
  | succ m ih =>
    intro v new hm hl
    by_cases hc : ex new = true
    · have h1 := next_length' (v := v + 1) h8 hl
      obtain ⟨fuel, r, h⟩ := ih (v + 1) (nextName lenf new (v + 1)) (by omega) (by omega)
      exact ⟨fuel + 1, r, by rw [verLoop, if_pos hc, h]⟩
    · exact ⟨1, new, by rw [verLoop, if_neg hc]⟩

/-- **C127**: the loop ends in every directory, also beyond 9999 versions. -/
theorem C127_ends (files : List (List Char)) {path : List Char} (h8 : 8 ≤ path.length) {v : Nat}
    (hv : pyIntDigits ((path.drop (path.length - 8)).take 4) = .ok v) :
    ∃ fuel new, updateVersion (fun p => decide (p ∈ files)) path fuel = .ok (some new) := by
  have hB : ∀ p, decide (p ∈ files) = true → p.length ≤ (files.map List.length).sum := by
    intro p hp
    exact List.le_sum_of_mem (List.mem_map_of_mem (of_decide_eq_true hp))
  obtain ⟨fuel, r, h⟩ := verLoop_ends hB h8 9999 v path (by omega) (le_refl _)
  exact ⟨fuel, r, by simp only [updateVersion, hv, bind, Except.bind, h]⟩

/-- **C127** is false beyond 9999: the version after 10000 is written 100010, and the next one 1000210. -/
theorem C127_overflow_false :
    updateVersion (fun p => decide (p ∈ ["TAU_9999.TAB".toList, "TAU_10000.TAB".toList])) "TAU_9999.TAB".toList 9 =
      .ok (some "TAU_100010.TAB".toList) ∧
    updateVersion (fun p => decide (p ∈ ["TAU_9999.TAB".toList, "TAU_10000.TAB".toList, "TAU_100010.TAB".toList])) "TAU_9999.TAB".toList 9 =
      .ok (some "TAU_1000210.TAB".toList) := by
  constructor <;> decide +kernel

/-- **C127**, a name without a version is an error. -/
theorem C127_noversion (ex : List Char → Bool) (fuel : Nat) {pre s ext : List Char} (hs : s.length = 4) (he : ext.length = 4)
    (hd : s.all isDigit = false) : updateVersion ex (pre ++ s ++ ext) fuel = .error .value := by
  have e : ((pre ++ s ++ ext).drop ((pre ++ s ++ ext).length - 8)).take 4 = s := by
    rw [List.length_append, List.length_append, hs, he, show pre.length + 4 + 4 - 8 = pre.length by omega, List.append_assoc,
      List.drop_left, ← hs, List.take_left']
    rfl
  rw [updateVersion, e, pyIntDigits, if_neg (by rw [hd]; simp)]
  rfl

/-! ### Table and label -/

/-- **C127**, table and label: when for every number either both or none of them exist, they get the same free number; if the
first number is free and no range is added, the label names the table. -/
theorem C127_pair_partial (ex : List Char → Bool) (dir pre : List Char) {a k fuel : Nat} (hk : a + k < 10000)
    (hex : ∀ j < k, ex (numbered (dir ++ pre) ".TAB".toList (a + j)) = true)
    (hsync : ∀ m, ex (numbered (dir ++ pre) ".LBL".toList m) = ex (numbered (dir ++ pre) ".TAB".toList m))
    (hfree : ex (numbered (dir ++ pre) ".TAB".toList (a + k)) = false) (hf : k < fuel) :
    ∃ r, mergedFiles ex dir (numbered pre [] a) none fuel = .ok (some r) ∧ r.table = numbered (dir ++ pre) ".TAB".toList (a + k) ∧
      r.label = numbered (dir ++ pre) ".LBL".toList (a + k) ∧ (k = 0 → r.table = dir ++ r.pointer) := by
  have e : ∀ ext : List Char, dir ++ withRange none (numbered pre [] a ++ ext) = numbered (dir ++ pre) ext a := by
    intro ext
    simp only [withRange, numbered, List.append_nil, List.append_assoc]
  have h1 := C127_version_partial ex (pre := dir ++ pre) (ext := ".TAB".toList) rfl hk hex hfree hf
  have h2 := C127_version_partial ex (pre := dir ++ pre) (ext := ".LBL".toList) rfl hk (fun j hj => by rw [hsync]; exact hex j hj)
    (by rw [hsync]; exact hfree) hf
  refine ⟨⟨numbered pre [] a ++ ".TAB".toList, _, _⟩, ?_, rfl, rfl, ?_⟩
  · simp only [mergedFiles, e, h1, h2, bind, Except.bind, Option.bind]
    rfl
  · intro hk0
    subst hk0
    show numbered (dir ++ pre) ".TAB".toList (a + 0) = dir ++ (numbered pre [] a ++ ".TAB".toList)
    rw [Nat.add_zero]
    simp only [numbered, List.append_nil, List.append_assoc]

/-- **C127** is false of a table that exists without its label: the copies get different numbers. -/
theorem C127_pair_false : mergedFiles (fun p => decide (p = "/o/TAU_01000M_1_0001.TAB".toList)) "/o/".toList "TAU_01000M_1_0001".toList none 9 =
    .ok (some ⟨"TAU_01000M_1_0001.TAB".toList, "/o/TAU_01000M_1_0002.TAB".toList, "/o/TAU_01000M_1_0001.LBL".toList⟩) := by decide +kernel

/-- **C127** is false of the pointer: with a range in the name, or with another version, the label names a table that is not there. -/
theorem C127_pointer_false :
    mergedFiles (fun _ => false) "/o/".toList "TAU_01000M_1_0001".toList (some (87400, 87600)) 9 =
      .ok (some ⟨"TAU_01000M_1_0001.TAB".toList, "/o/TAU_01000M_087400-087600_1_0001.TAB".toList,
        "/o/TAU_01000M_087400-087600_1_0001.LBL".toList⟩) ∧
    mergedFiles (fun p => decide (p ∈ ["/o/TAU_01000M_1_0001.TAB".toList, "/o/TAU_01000M_1_0001.LBL".toList])) "/o/".toList
        "TAU_01000M_1_0001".toList none 9 =
      .ok (some ⟨"TAU_01000M_1_0001.TAB".toList, "/o/TAU_01000M_1_0002.TAB".toList, "/o/TAU_01000M_1_0002.LBL".toList⟩) := by
  constructor <;> decide +kernel

/-! ### Examples -/

/-- Versions 1 and 2 exist. -/
def demoEx : List Char → Bool := fun p => decide (p ∈ ["TAU_0001.TAB".toList, "TAU_0002.TAB".toList, "TAU_0001.LBL".toList, "TAU_0002.LBL".toList])

example : updateVersion demoEx (numbered "TAU_".toList ".TAB".toList 1) 3 = .ok (some (numbered "TAU_".toList ".TAB".toList (1 + 2))) :=
  C127_version_partial demoEx rfl (by norm_num) (by decide +kernel) (by decide +kernel) (by norm_num)

example : demoEx "TAU_0003.TAB".toList = false :=
  C127_free demoEx (path := "TAU_0001.TAB".toList) (fuel := 3) (by decide +kernel)

example : ∃ fuel new, updateVersion (fun p => decide (p ∈ ["TAU_9999.TAB".toList, "TAU_10000.TAB".toList])) "TAU_9999.TAB".toList fuel =
    .ok (some new) :=
  C127_ends _ (by decide) (v := 9999) (by decide +kernel)

example : updateVersion demoEx ("TAU_00".toList ++ "01_F".toList ++ ".TAB".toList) 3 = .error .value :=
  C127_noversion demoEx 3 rfl rfl (by decide)

example : ∃ r, mergedFiles (fun _ => false) "/o/".toList (numbered "TAU_".toList [] 1) none 1 = .ok (some r) ∧
    r.table = "/o/TAU_0001.TAB".toList ∧ r.table = "/o/".toList ++ r.pointer := by
  obtain ⟨r, h, h1, -, h2⟩ := C127_pair_partial (fun _ => false) "/o/".toList "TAU_".toList (a := 1) (k := 0) (fuel := 1) (by norm_num)
    (by simp) (fun _ => rfl) rfl (by norm_num)
  exact ⟨r, h, by rw [h1]; decide +kernel, h2 rfl⟩

end Verif.Out
