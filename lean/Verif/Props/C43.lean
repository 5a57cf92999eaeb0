import Verif.Proofs.CsvHeap

/-!
# C43 Extracting and destroying the combined CSV data: every block is owned exactly once
-/
namespace Verif

namespace Spec

/-- Addresses that were never handed out are not live. -/
def SoundHeap (h : Heap Unit) : Prop := ∀ p, h.next ≤ p → h.blk p = none

/-- A file that opens, has the right number of columns and at least one row. -/
def Usable (f : FileOut) : Prop := f.opens = true ∧ f.cols = true ∧ f.rows ≠ 0

/-- The files before the tau file; for Uranus there is no calibration file. -/
def MainFilesUsable (M : CsvKind) (W : CsvWorld) : Prop :=
  Usable W.geo ∧ (M ≠ .uranus → Usable W.cal) ∧ Usable W.dlp

/-- Calls of `malloc` before the tau file when all goes well: the object (1); geometry object and 18 or 19 arrays;
calibration object and 4 arrays; DLP object and 12, 13 or 17 arrays. -/
def callsBeforeTau : CsvKind → Nat
  | .cassini true => 1 + 19 + 5 + 13
  | .cassini false => 1 + 20 + 5 + 14
  | .uranus => 1 + 20 + 18

/-- Calls of `malloc` before the arrays for the interpolated columns: those above, the tau object with 12 or 13 arrays, and
for the deprecated formats the normalised power. -/
def callsBeforeCopies (M : CsvKind) (W : CsvWorld) : Nat :=
  callsBeforeTau M + (match W.tau, M with
    | none, _ => 0
    | some _, .cassini true => 13
    | some _, _ => 14) + (match M with
    | .cassini true => 1
    | _ => 0)

/-- Arrays for interpolated columns. -/
def copies (M : CsvKind) (W : CsvWorld) : Nat :=
  (match M with
    | .cassini _ => 6
    | .uranus => 3) + (match W.tau with
    | none => 0
    | some _ => 3)

/-- The calls number `c` to `c + n - 1` succeed. -/
def AllSucceed (A : Nat → Bool) (c n : Nat) : Prop := ∀ i, i < n → A (c + i) = true

/-- First bad situation: the first allocation to fail is that of the tau object itself. -/
def TauObjectFails (M : CsvKind) (W : CsvWorld) (c : Nat) : Prop :=
  W.tau ≠ none ∧ MainFilesUsable M W ∧ AllSucceed W.A c (callsBeforeTau M) ∧ W.A (c + callsBeforeTau M) = false

/-- Everything is read without error and everything is allocated, up to the arrays for the interpolated columns. -/
def ReadComplete (M : CsvKind) (W : CsvWorld) (c : Nat) : Prop :=
  MainFilesUsable M W ∧ (∀ f, W.tau = some f → Usable f) ∧ AllSucceed W.A c (callsBeforeCopies M W)

/-- Second bad situation: the first allocation to fail is that of an array for an interpolated column. -/
def CopyFails (M : CsvKind) (W : CsvWorld) (c : Nat) : Prop :=
  ReadComplete M W c ∧ ¬ AllSucceed W.A (c + callsBeforeCopies M W) (copies M W)

/-- The live blocks that were not live in `h0` are the object itself, its message and its arrays, each of them once; no
other block has changed, and the object has no sub-objects left. -/
structure OwnsNew (h0 : Heap Unit) (s : CsvSt) : Prop where
  alone : s.geo = none ∧ s.cal = none ∧ s.dlp = none ∧ s.tau = none
  old : ∀ p, h0.blk p ≠ none → s.mem.heap.blk p = h0.blk p
  new : ∀ p, (s.mem.heap.blk p ≠ none ∧ h0.blk p = none) ↔ (p = s.self ∨ s.msg = some p ∨ ∃ f, s.ptr f = some p)
  members : ∀ f g p, s.ptr f = some p → s.ptr g = some p → f = g
  apart : s.msg ≠ some s.self ∧ (∀ f, s.ptr f ≠ some s.self) ∧ ∀ f p, s.ptr f = some p → s.msg ≠ some p

/-- The arrays of a complete object. -/
def fullMembers (W : CsvWorld) : List CsvMem :=
  [.B, .D, .fSky, .pNorm, .rawTau, .phase, .phi, .phiRl, .rawThreshold, .rhoCorrPole, .rhoCorrTiming, .rhoDot, .rho, .rx,
   .ry, .rz, .tOet, .tRet, .tSet] ++ match W.tau with
    | none => []
    | some _ => [.tauPhase, .tauPower, .tauVals]

/-- The number of arrays that are lost in the first bad situation. -/
def lost : CsvKind → Nat
  | .cassini true => 12
  | .cassini false => 13
  | .uranus => 16

end Spec
open Spec

theorem filterMap_inj {p : CsvMem → Option Nat} : ∀ {fs : List CsvMem}, (fs.filterMap p).Nodup → ∀ {f g : CsvMem} {a : Nat},
    f ∈ fs → g ∈ fs → p f = some a → p g = some a → f = g
  | [], _, _, _, _, hf, _, _, _ => by cases hf
  | x :: xs, hn, f, g, a, hf, hg, h1, h2 => by
    rw [filterMap_cons_opt, List.nodup_append] at hn
    obtain ⟨-, hn2, hd⟩ := hn
    rcases List.mem_cons.1 hf with rfl | hf' <;> rcases List.mem_cons.1 hg with rfl | hg'
    · rfl
    · exact absurd rfl (hd a (by rw [h1]; simp) a (List.mem_filterMap.2 ⟨g, hg', h2⟩))
    · exact absurd rfl (hd a (by rw [h2]; simp) a (List.mem_filterMap.2 ⟨f, hf', h1⟩))
    · exact filterMap_inj hn2 hf' hg' h1 h2

theorem Fin.owns {h0 : Heap Unit} {s : CsvSt} (F : Fin h0 s) : OwnsNew h0 s := by
  have hsup : ∀ f p, s.ptr f = some p → f ∈ csvFrees := by
    intro f p h
    by_contra hf
    rw [F.supp f hf] at h; cases h
  have hmem : ∀ p, p ∈ csvFrees.filterMap s.ptr ++ (s.msg.toList ++ [s.self]) ↔
      (p = s.self ∨ s.msg = some p ∨ ∃ f, s.ptr f = some p) := by
    intro p
    simp only [List.mem_append, List.mem_filterMap, List.mem_singleton, Option.mem_toList, Option.mem_def]
    constructor
    · rintro (⟨f, -, h⟩ | h | h)
      · exact .inr (.inr ⟨f, h⟩)
      · exact .inr (.inl h)
      · exact .inl h
    · rintro (h | h | ⟨f, h⟩)
      · exact .inr (.inr h)
      · exact .inr (.inl h)
      · exact .inl ⟨f, hsup f p h, h⟩
  obtain ⟨n1, n2, n3⟩ := List.nodup_append.1 F.H.nodup
  obtain ⟨-, -, n4⟩ := List.nodup_append.1 n2
  refine ⟨F.none, ?_, ?_, ?_, ?_, ?_, ?_⟩
  · intro p hp
    exact F.H.rest p fun h => hp (F.H.old p h)
  · intro p
    rw [← hmem]
    constructor
    · rintro ⟨h1, h2⟩
      by_contra h
      rw [F.H.rest p h] at h1
      exact h1 h2
    · intro h
      exact ⟨by rw [F.H.live p h]; simp, F.H.old p h⟩
  · intro f g p hf hg
    exact filterMap_inj n1 (hsup f p hf) (hsup g p hg) hf hg
  · intro h
    exact n4 s.self (by rw [h]; simp) s.self (by simp) rfl
  · intro f h
    exact n3 s.self (List.mem_filterMap.2 ⟨f, hsup f _ h, h⟩) s.self (by simp) rfl
  · intro f p hf h
    exact n3 p (List.mem_filterMap.2 ⟨f, hsup f p hf, hf⟩) p (by rw [h]; simp) rfl

/-- The chain of calls with named steps. -/
theorem ownExtract_eq (M : CsvKind) (W : CsvWorld) (m : Mem) : ownExtract M W m =
    (match m.malloc W.A with
    | (none, m) => .ok (.inl m)
    | (some a, m) => do
      let s ← extractStep W.A M M.geo putGeo W.geo ⟨m, a, fun _ => none, none, none, none, none, 0, false, none⟩
      let s ← calStep M W s
      let s ← extractStep W.A M M.dlp putDlp W.dlp s
      let s ← tauStep M W s
      let s ← stealStep W.A M s
      let s ← mallocStep W.A M s
      let s ← finishStep M (checkStep W.A W.interp (checkStep W.A W.chord s))
      .ok (.inr s)) := rfl

/-- The calls before the tau file without the first. -/
def readCalls (M : CsvKind) : Nat := 1 + M.geo.allocs.length + (if M = .uranus then 0 else 5) + (1 + M.dlp.allocs.length)

theorem readCalls_eq (M : CsvKind) : 1 + readCalls M = callsBeforeTau M := by rcases M with ⟨_ | _⟩ | _ <;> rfl

theorem allSucceed_succ {A : Nat → Bool} {c n : Nat} (h : A c = true) :
    AllSucceed A c (1 + n) ↔ ∀ i, i < n → A (c + 1 + i) = true := by
  unfold AllSucceed
  rw [range_split]
  exact ⟨fun h => h.2, fun h' => ⟨fun i hi => by rw [show i = 0 by omega]; exact h, h'⟩⟩

theorem copyCalls_eq (M : CsvKind) (W : CsvWorld) :
    1 + (readCalls M + tauCalls M W.tau + stealCalls M) = callsBeforeCopies M W := by
  have := readCalls_eq M
  unfold callsBeforeCopies
  rw [← this]
  cases W.tau <;> rcases M with ⟨_ | _⟩ | _ <;> rfl

/-- The outcome of reading the files. -/
theorem read_cases {M : CsvKind} {W : CsvWorld} {m : Mem} (hs : SoundHeap m.heap) (hA : W.A m.calls = true) :
    ∃ (m1 : Mem) (a : Nat) (s s' : CsvSt), m.malloc W.A = (some a, m1) ∧ ownExtract M W m = (do
      let s ← stealStep W.A M s'
      let s ← mallocStep W.A M s
      let s ← finishStep M (checkStep W.A W.interp (checkStep W.A W.chord s))
      .ok (.inr s)) ∧
      (¬ TauObjectFails M W m.calls →
        Stage2 m.heap M W.A (m.calls + 1) (readCalls M + tauCalls M W.tau)
          (((fileGood W.geo ∧ (M ≠ .uranus → fileGood W.cal)) ∧ fileGood W.dlp) ∧ ∀ f, W.tau = some f → fileGood f) s' ∧
        (s'.err = false → s'.tau.isSome = W.tau.isSome)) ∧
      (TauObjectFails M W m.calls → ∃ x m, s.dlp = some x ∧ DlpFull M x ∧ s.err = false ∧
        s' = ({ s with mem := m }.fail W.A)) ∧ Pre m.heap M s' ∧ s.tau = none := by
  have H0 : Holds m.heap m.heap [] := ⟨List.nodup_nil, by simp, fun _ _ => rfl, by simp, hs⟩
  rcases H0.malloc W.A with ⟨-, a, m1, e, H1, c1⟩ | ⟨h, -⟩
  · obtain ⟨s1, e1, S1, hc⟩ := stage_geo (M := M) (W := W) H1
    obtain ⟨s2, e2, S2⟩ := stage_cal S1 hc
    obtain ⟨s3, e3, S3, ht⟩ := stage_dlp S2
    obtain ⟨s4, e4, h4, h5⟩ := stage_tau S3 ht
    rw [c1] at h4 h5
    have hiff : TauObjFails W.A (m.calls + 1) (1 + M.geo.allocs.length + (if M = .uranus then 0 else 5) + (1 + M.dlp.allocs.length))
        ((fileGood W.geo ∧ (M ≠ .uranus → fileGood W.cal)) ∧ fileGood W.dlp) W.tau ↔ TauObjectFails M W m.calls := by
      unfold TauObjFails TauObjectFails
      rw [← readCalls_eq, allSucceed_succ hA]
      have h2 : W.A (m.calls + (1 + readCalls M)) = W.A (m.calls + 1 + readCalls M) := by rw [Nat.add_assoc]
      rw [h2]
      constructor
      · rintro ⟨a, ⟨⟨b, c⟩, d⟩, f, g⟩
        exact ⟨a, ⟨b, c, d⟩, f, g⟩
      · rintro ⟨a, ⟨b, c, d⟩, f, g⟩
        exact ⟨a, ⟨⟨b, c⟩, d⟩, f, g⟩
    rw [hiff] at h4 h5
    refine ⟨m1, a, s3, s4, e, ?_, h4, ?_, ?_, ht⟩
    · rw [ownExtract_eq, e]
      simp only [e1, e2, e3, e4, Res.ok_bind]
    · intro h
      obtain ⟨x, m', k1, k2, k3, k4, -⟩ := h5 h
      exact ⟨x, m', k1, k2, k3, k4⟩
    · by_cases h : TauObjectFails M W m.calls
      · obtain ⟨x, m', k1, k2, k3, k4, k5⟩ := h5 h
        exact k5
      · exact (h4 h).1.pre
  · rw [hA] at h; cases h

theorem mallocStep_err (A : Nat → Bool) (M : CsvKind) {s : CsvSt} (h : s.err = true) : mallocStep A M s = .ok s := by
  unfold mallocStep; rw [if_pos h]

theorem stealStep_err (A : Nat → Bool) (M : CsvKind) {s : CsvSt} (h : s.err = true) : stealStep A M s = .ok s := by
  unfold stealStep; rw [if_pos h]

theorem mallocs_ok (M : CsvKind) (b : Bool) : (M.mallocs b).Nodup ∧ (∀ v ∈ M.mallocs b, v ∈ csvFrees ∧ v ≠ .rho) := by
  rcases M with ⟨_ | _⟩ | _ <;> cases b <;> exact ⟨by decide, by decide⟩

theorem mallocs_length (M : CsvKind) (W : CsvWorld) : (M.mallocs W.tau.isSome).length = copies M W := by
  unfold copies
  cases W.tau <;> rcases M with ⟨_ | _⟩ | _ <;> rfl

theorem full_cases (M : CsvKind) (W : CsvWorld) (f : CsvMem) (h : f ∈ fullMembers W) :
    ((source M f).isSome ∨ (M = .cassini true ∧ f = .pNorm)) ∨ f ∈ M.mallocs W.tau.isSome := by
  unfold fullMembers at h
  revert h
  cases W.tau with
  | none => intro h; revert f; rcases M with ⟨_ | _⟩ | _ <;> decide
  | some x => intro h; simp only [Option.isSome_some] at h ⊢; clear x; revert f; rcases M with ⟨_ | _⟩ | _ <;> decide

/-- The rest of the extraction once everything was read. -/
theorem rest_cases {M : CsvKind} {W : CsvWorld} {m : Mem} {s' : CsvSt} (hA : W.A m.calls = true) {good : Prop}
    (S : Stage2 m.heap M W.A (m.calls + 1) (readCalls M + tauCalls M W.tau) good s') (he : s'.err = false)
    (ht : s'.tau.isSome = W.tau.isSome) :
    ((AllSucceed W.A m.calls (callsBeforeCopies M W) → AllSucceed W.A (m.calls + callsBeforeCopies M W) (copies M W)) →
      ∃ s, (do
        let s ← stealStep W.A M s'
        let s ← mallocStep W.A M s
        let s ← finishStep M (checkStep W.A W.interp (checkStep W.A W.chord s))
        .ok (.inr s) : Res (Mem ⊕ CsvSt)) = .ok (.inr s) ∧ Fin m.heap s ∧
        (AllSucceed W.A m.calls (callsBeforeCopies M W) → s.err = (W.chord || W.interp) ∧ ∀ f ∈ fullMembers W, (s.ptr f).isSome) ∧
        (¬ AllSucceed W.A m.calls (callsBeforeCopies M W) → s.err = true)) ∧
    (AllSucceed W.A m.calls (callsBeforeCopies M W) → ¬ AllSucceed W.A (m.calls + callsBeforeCopies M W) (copies M W) →
      (do
        let s ← stealStep W.A M s'
        let s ← mallocStep W.A M s
        let s ← finishStep M (checkStep W.A W.interp (checkStep W.A W.chord s))
        .ok (.inr s) : Res (Mem ⊕ CsvSt)) = .ub .doubleFree) := by
  obtain ⟨s2, o, e2, ho, S3, ht2⟩ := stage_steal S he
  rw [e2, Res.ok_bind]
  have hall := allSucceed_succ (c := m.calls) (n := readCalls M + tauCalls M W.tau + stealCalls M) hA
  rw [copyCalls_eq] at hall
  cases he2 : s2.err
  · have hw := hall.2 (S3.was he2).2
    have hc : s2.mem.calls = m.calls + callsBeforeCopies M W := by
      rw [S3.calls he2, ← copyCalls_eq]; omega
    have hms : mallocStep W.A M s2 = csvMallocs W.A M (M.mallocs W.tau.isSome) s2 := by
      unfold mallocStep
      rw [if_neg (by rw [he2]; decide), if_neg S3.post.n, ht2, ht]
    obtain ⟨n1, n2⟩ := mallocs_ok M W.tau.isSome
    have hcm := csvMallocs_ok W.A (M.mallocs W.tau.isSome) s2 n1 n2 (S3.empty he2 _) he2 (S3.msg he2) S3.post
    rw [mallocs_length, hc] at hcm
    rw [hms]
    refine ⟨fun hsuc => ?_, fun _ hn => ?_⟩
    · obtain ⟨s3, k1, k2, k3, k4, k5, k6⟩ := hcm.1 (hsuc hw)
      obtain ⟨p1, q1, r1, t1⟩ := post_check W.A W.chord (fun _ => k4) k2
      obtain ⟨p2, q2, r2, t2⟩ := post_check W.A W.interp q1 p1
      obtain ⟨s4, e4, F, r4, t4⟩ := finish_post p2
      rw [k1, Res.ok_bind, e4, Res.ok_bind]
      refine ⟨s4, rfl, F, fun _ => ⟨by rw [r4, r2, r1, k3, Bool.false_or], fun f hf => ?_⟩, fun h => absurd hw h⟩
      rw [t4, t2, t1]
      rcases full_cases M W f hf with h | h
      · exact k6 f (S3.arr he2 f h)
      · exact k5 f h
    · rw [hcm.2 hn]; rfl
  · have hnot : ¬ AllSucceed W.A m.calls (callsBeforeCopies M W) := fun h => by
      have := S3.ok (S.was he).1 (hall.1 h)
      rw [he2] at this; cases this
    refine ⟨fun _ => ?_, fun h => absurd h hnot⟩
    rw [mallocStep_err _ _ he2, Res.ok_bind, check_err _ _ he2, check_err _ _ he2]
    obtain ⟨s4, e4, F, r4, -⟩ := finish_post S3.post
    rw [e4, Res.ok_bind]
    exact ⟨s4, rfl, F, fun h => absurd h hnot, fun _ => by rw [r4]; exact he2⟩

theorem read_iff {M : CsvKind} {W : CsvWorld} {m : Mem} (hA : W.A m.calls = true) {s' : CsvSt}
    (S : Stage2 m.heap M W.A (m.calls + 1) (readCalls M + tauCalls M W.tau)
      (((fileGood W.geo ∧ (M ≠ .uranus → fileGood W.cal)) ∧ fileGood W.dlp) ∧ ∀ f, W.tau = some f → fileGood f) s') :
    s'.err = false ↔ (MainFilesUsable M W ∧ (∀ f, W.tau = some f → Usable f)) ∧
      AllSucceed W.A m.calls (1 + (readCalls M + tauCalls M W.tau)) := by
  rw [allSucceed_succ hA]
  constructor
  · intro h
    obtain ⟨⟨⟨⟨a, b⟩, c⟩, d⟩, e⟩ := S.was h
    exact ⟨⟨⟨a, b, c⟩, d⟩, e⟩
  · rintro ⟨⟨⟨a, b, c⟩, d⟩, e⟩
    exact S.ok ⟨⟨⟨a, b⟩, c⟩, d⟩ e

theorem readComplete_sub {M : CsvKind} {W : CsvWorld} {c : Nat} (h : ReadComplete M W c) :
    (MainFilesUsable M W ∧ (∀ f, W.tau = some f → Usable f)) ∧ AllSucceed W.A c (1 + (readCalls M + tauCalls M W.tau)) := by
  refine ⟨⟨h.1, h.2.1⟩, fun i hi => h.2.2 i ?_⟩
  rw [← copyCalls_eq]; omega

/-- If reading everything succeeds, the tau object was allocated. -/
theorem not_tauFails {M : CsvKind} {W : CsvWorld} {c : Nat} (h : ReadComplete M W c) : ¬ TauObjectFails M W c := by
  rintro ⟨h1, -, -, h4⟩
  have := h.2.2 (callsBeforeTau M) (by
    rw [← copyCalls_eq, ← readCalls_eq]
    have : 0 < tauCalls M W.tau := by
      cases hW : W.tau with
      | none => exact absurd hW h1
      | some f => simp only [tauCalls]; omega
    omega)
  rw [h4] at this; cases this

/-! ### The theorems -/

/-- **C43**, Cassini.  Whatever the files are like and whichever allocations fail, except in the two situations below: the
result is NULL and the heap is as before, or an object that owns exactly the new blocks, each once; destroying it puts the
heap back as it was. The object is free of errors exactly if every file is usable, every allocation succeeded, the chord
check and the interpolation passed; then all its arrays are there. -/
theorem C43_cassini_partial (d : Bool) (W : CsvWorld) (m : Mem) (hs : SoundHeap m.heap)
    (h1 : ¬ TauObjectFails (.cassini d) W m.calls) (h2 : ¬ CopyFails (.cassini d) W m.calls) :
    (W.A m.calls = false ∧ ∃ m', ownExtract (.cassini d) W m = .ok (.inl m') ∧ m'.heap = m.heap) ∨
    (∃ s, ownExtract (.cassini d) W m = .ok (.inr s) ∧ OwnsNew m.heap s ∧
      (∃ m', ownDestroy (.cassini d) s = .ok m' ∧ ∀ p, m'.heap.blk p = m.heap.blk p) ∧
      (s.err = false ↔ ReadComplete (.cassini d) W m.calls ∧ W.chord = false ∧ W.interp = false) ∧
      (s.err = false → ∀ f ∈ fullMembers W, (s.ptr f).isSome)) := by
  cases hA : W.A m.calls
  · refine .inl ⟨rfl, ⟨m.heap, m.calls + 1⟩, ?_, rfl⟩
    rw [ownExtract_eq]
    simp only [Mem.malloc, hA, Bool.false_eq_true, if_false]
  · right
    obtain ⟨m1, a, s, s', e, ex, k1, -, k3, -⟩ := read_cases (M := .cassini d) hs hA
    obtain ⟨S, ht⟩ := k1 h1
    rw [ex]
    cases he : s'.err
    · obtain ⟨r1, -⟩ := rest_cases hA S he (ht he)
      obtain ⟨⟨q1, q2⟩, -⟩ := (read_iff hA S).1 he
      obtain ⟨t, e1, F, a1, a2⟩ := r1 fun h => by
        by_contra hn
        exact h2 ⟨⟨q1, q2, h⟩, hn⟩
      obtain ⟨m', e2, H⟩ := fin_destroy (M := .cassini d) F
      refine ⟨t, e1, F.owns, ⟨m', e2, fun p => H.rest p (by simp)⟩, ?_, fun ht => ?_⟩
      · constructor
        · intro ht
          by_cases hall : AllSucceed W.A m.calls (callsBeforeCopies (.cassini d) W)
          · have := (a1 hall).1
            rw [ht] at this
            refine ⟨⟨q1, q2, hall⟩, ?_⟩
            simpa using this.symm
          · rw [a2 hall] at ht; cases ht
        · rintro ⟨⟨-, -, hall⟩, b1, b2⟩
          rw [(a1 hall).1, b1, b2]; rfl
      · by_cases hall : AllSucceed W.A m.calls (callsBeforeCopies (.cassini d) W)
        · exact (a1 hall).2
        · rw [a2 hall] at ht; cases ht
    · obtain ⟨t, e1, F, r1, -⟩ := finish_pre k3 (S.dlp he)
      obtain ⟨m', e2, H⟩ := fin_destroy (M := .cassini d) F
      rw [stealStep_err _ _ he, Res.ok_bind, mallocStep_err _ _ he, Res.ok_bind, check_err _ _ he, check_err _ _ he, e1, Res.ok_bind]
      refine ⟨t, rfl, F.owns, ⟨m', e2, fun p => H.rest p (by simp)⟩, ?_, fun ht => ?_⟩
      · constructor
        · intro ht; rw [r1, he] at ht; cases ht
        · rintro ⟨h, -⟩
          have := (read_iff hA S).2 (readComplete_sub h)
          rw [he] at this; cases this
      · rw [r1, he] at ht; cases ht

/-- **C43**, both missions, when all is read and allocated: exact ownership and complete release, whether or not the chord
check and the interpolation pass. -/
theorem C43_complete (M : CsvKind) (W : CsvWorld) (m : Mem) (hs : SoundHeap m.heap) (h1 : ReadComplete M W m.calls)
    (h2 : AllSucceed W.A (m.calls + callsBeforeCopies M W) (copies M W)) :
    ∃ s, ownExtract M W m = .ok (.inr s) ∧ OwnsNew m.heap s ∧ s.err = (W.chord || W.interp) ∧
      (∀ f ∈ fullMembers W, (s.ptr f).isSome) ∧
      ∃ m', ownDestroy M s = .ok m' ∧ ∀ p, m'.heap.blk p = m.heap.blk p := by
  have hA : W.A m.calls = true := h1.2.2 0 (by rw [← copyCalls_eq]; omega)
  obtain ⟨m1, a, s, s', e, ex, k1, -, k3, -⟩ := read_cases (M := M) hs hA
  obtain ⟨S, ht⟩ := k1 (not_tauFails h1)
  have he := (read_iff hA S).2 (readComplete_sub h1)
  obtain ⟨r1, -⟩ := rest_cases hA S he (ht he)
  obtain ⟨t, e1, F, a1, -⟩ := r1 fun _ => h2
  obtain ⟨m', e2, H⟩ := fin_destroy (M := M) F
  exact ⟨t, by rw [ex]; exact e1, F.owns, (a1 h1.2.2).1, (a1 h1.2.2).2, m', e2, fun p => H.rest p (by simp)⟩

/-- The negation of **C43**, second bad situation, for every heap, every usable set of files and both missions: the arrays
already handed over are released through the combined object, and then again through the DLP object. -/
theorem C43_copy_false (M : CsvKind) (W : CsvWorld) (m : Mem) (hs : SoundHeap m.heap) (h : CopyFails M W m.calls) :
    ownExtract M W m = .ub .doubleFree := by
  obtain ⟨h1, h2⟩ := h
  have hA : W.A m.calls = true := h1.2.2 0 (by rw [← copyCalls_eq]; omega)
  obtain ⟨m1, a, s, s', e, ex, k1, -, k3, -⟩ := read_cases (M := M) hs hA
  obtain ⟨S, ht⟩ := k1 (not_tauFails h1)
  have he := (read_iff hA S).2 (readComplete_sub h1)
  rw [ex]
  exact (rest_cases hA S he (ht he)).2 h1.2.2 h2

theorem tau_leak {M : CsvKind} {h0 : Heap Unit} {s : CsvSt} {x : CObj} (P : Pre h0 M s) (hd : s.dlp = some x) (hx : DlpFull M x) :
    ∃ s' m', finishStep M s = .ok s' ∧ s'.err = s.err ∧ (∀ f, s'.ptr f = none) ∧ ownDestroy M s' = .ok m' ∧
      Holds h0 m'.heap (csvFrees.filterMap fun f => (source M f).bind x.ptr) := by
  have H : Holds h0 s.mem.heap (objOwn M.geo s.geo ++ (objOwn calFmt s.cal ++ (objOwn M.tau s.tau ++ (dlpRest M x ++
      (s.msg.toList ++ ([s.self] ++ (csvFrees.filterMap fun f => (source M f).bind x.ptr))))))) := by
    refine P.H.perm ?_
    simp only [preList, hd]
    refine ((List.Perm.append_right _ (steal_list hx)).append_left _ |>.append_left _).trans ?_
    refine List.Perm.append_left _ (List.Perm.append_left _ ?_)
    rw [List.append_assoc]
    refine (List.perm_append_comm).trans ?_
    simp only [List.append_assoc]
    refine (List.perm_append_comm_assoc _ _ _).trans ?_
    exact List.Perm.refl _
  obtain ⟨m1, e1, H1, -⟩ := destroyObj_ok M.geo_ok P.objs.geo H
  obtain ⟨m2, e2, H2, -⟩ := destroyObj_ok calFmt_ok P.objs.cal H1
  obtain ⟨m3, e3, H3, -⟩ := destroyObj_ok M.tau_ok P.objs.tau H2
  have key : ∃ m5, finishStep M s = .ok { s with
      mem := m5
      geo := none
      cal := none
      tau := none
      dlp := none } ∧ Holds h0 m5.heap (s.msg.toList ++ ([s.self] ++ (csvFrees.filterMap fun f => (source M f).bind x.ptr))) := by
    unfold finishStep
    simp only [e1, e2, e3, Res.ok_bind, hd]
    unfold dlpRest at H3
    cases M with
    | cassini d =>
      rw [if_neg (by simp)] at H3
      obtain ⟨m4, e4, H4, -⟩ := Holds.free (p := x.addr) H3
      simp only [Option.map_some, e4, Res.ok_bind]
      exact ⟨_, rfl, H4⟩
    | uranus =>
      rw [if_pos rfl, List.append_assoc] at H3
      obtain ⟨m4, e4, H4, -⟩ := H3.freeOpt
      obtain ⟨m5, e5, H5, -⟩ := Holds.free (p := x.addr) H4
      have hg := H3.get (p := x.addr) (by simp)
      simp only [hg, Option.map_some, e4, e5, Res.ok_bind]
      exact ⟨_, rfl, H5⟩
  obtain ⟨m5, e5, H5⟩ := key
  obtain ⟨m6, e6, H6, -⟩ := freeMems_ok s.self csvFrees m5 s.ptr (s.msg.toList ++ ([s.self] ++ (csvFrees.filterMap fun f => (source M f).bind x.ptr)))
    csvFrees_nodup (by simp)
    (by rw [filterMap_none P.ptr]; exact H5)
  obtain ⟨m7, e7, H7, -⟩ := H6.freeOpt
  obtain ⟨m8, e8, H8, -⟩ := H7.free
  refine ⟨_, m8, e5, rfl, P.ptr, ?_, H8⟩
  unfold ownDestroy csvDestroyMembers
  simp only [destroyObj, e6, Res.ok_bind, e7, e8]

theorem stolen_length {M : CsvKind} {x : CObj} (hx : DlpFull M x) :
    (csvFrees.filterMap fun f => (source M f).bind x.ptr).length = lost M := by
  have h1 : csvFrees.filterMap (fun f => (source M f).bind x.ptr) = (csvFrees.filterMap (source M)).filterMap x.ptr := by
    rw [List.filterMap_filterMap]
  have h2 : ∀ fs : List CsvMem, (∀ f ∈ fs, f ∈ M.dlp.allocs) → (fs.filterMap x.ptr).length = fs.length := by
    intro fs
    induction fs with
    | nil => intro _; rfl
    | cons g gs ih =>
      intro h
      obtain ⟨p, hp⟩ := Option.isSome_iff_exists.1 (hx.all g (h g List.mem_cons_self))
      rw [filterMap_cons_opt, hp]
      simp [ih fun f hf => h f (List.mem_cons_of_mem _ hf)]
  rw [h1, h2]
  · rcases M with ⟨_ | _⟩ | _ <;> rfl
  · rcases M with ⟨_ | _⟩ | _ <;> decide

/-- The negation of **C43**, first bad situation: an object with an error is returned, the arrays of the DLP file are not
reachable from it, and after destroying it they are still there. -/
theorem C43_tau_false (M : CsvKind) (W : CsvWorld) (m : Mem) (hs : SoundHeap m.heap) (h : TauObjectFails M W m.calls) :
    ∃ (s : CsvSt) (m' : Mem) (l : List Nat), ownExtract M W m = .ok (.inr s) ∧ s.err = true ∧ (∀ f, s.ptr f = none) ∧ ownDestroy M s = .ok m' ∧
      l.Nodup ∧ l.length = lost M ∧ (∀ p ∈ l, m'.heap.blk p ≠ none ∧ m.heap.blk p = none) ∧
      ∀ p, p ∉ l → m'.heap.blk p = m.heap.blk p := by
  have hA : W.A m.calls = true := h.2.2.1 0 (by rw [← readCalls_eq]; omega)
  obtain ⟨m1, a, s, s', e, ex, -, k2, k3, -⟩ := read_cases (M := M) hs hA
  obtain ⟨x, m2, q1, q2, q3, rfl⟩ := k2 h
  have he : (CsvSt.fail W.A { s with mem := m2 }).err = true := rfl
  obtain ⟨t, m', e1, r1, r2, e2, H⟩ := tau_leak k3 q1 q2
  refine ⟨t, m', _, ?_, ?_, r2, e2, H.nodup, stolen_length q2, ?_, ?_⟩
  · rw [ex, stealStep_err _ _ he, Res.ok_bind, mallocStep_err _ _ he, Res.ok_bind, check_err _ _ he, check_err _ _ he, e1, Res.ok_bind]
  · rw [r1]; exact he
  · intro p hp
    exact ⟨by rw [H.live p hp]; simp, H.old p hp⟩
  · exact fun p hp => H.rest p hp

theorem finish_uranus_null {h0 : Heap Unit} {s : CsvSt} (P : Pre h0 .uranus s) (hd : s.dlp = none) :
    finishStep .uranus s = .ub .nullDeref := by
  have H := P.H
  simp only [preList, hd, objOwn, List.nil_append] at H
  obtain ⟨m1, e1, H1, -⟩ := destroyObj_ok (CsvKind.geo_ok _) P.objs.geo H
  obtain ⟨m2, e2, H2, -⟩ := destroyObj_ok calFmt_ok P.objs.cal H1
  obtain ⟨m3, e3, H3, -⟩ := destroyObj_ok (CsvKind.tau_ok _) P.objs.tau H2
  unfold finishStep
  simp only [e1, e2, e3, Res.ok_bind, hd]
  rfl

/-- The negation of **C43** for Uranus: whenever a file is not usable or an allocation fails while the files are read (apart
from the first allocation, and from the first bad situation above), the missing DLP object is dereferenced. -/
theorem C43_uranus_false (W : CsvWorld) (m : Mem) (hs : SoundHeap m.heap) (hA : W.A m.calls = true)
    (h1 : ¬ TauObjectFails .uranus W m.calls) (h2 : ¬ ReadComplete .uranus W m.calls) :
    ownExtract .uranus W m = .ub .nullDeref := by
  obtain ⟨m1, a, s, s', e, ex, k1, -, k3, -⟩ := read_cases (M := .uranus) hs hA
  obtain ⟨S, ht⟩ := k1 h1
  have he : s'.err = true := by
    by_contra he
    have he : s'.err = false := by simpa using he
    obtain ⟨⟨q1, q2⟩, q3⟩ := (read_iff hA S).1 he
    exact h2 ⟨q1, q2, by rw [← copyCalls_eq]; exact q3⟩
  rw [ex, stealStep_err _ _ he, Res.ok_bind, mallocStep_err _ _ he, Res.ok_bind, check_err _ _ he, check_err _ _ he,
    finish_uranus_null k3 (S.dlp he)]
  rfl

/-! ### Examples -/

/-- Usable files; allocation number `k` fails. -/
def failAt (k : Nat) : CsvWorld where
  A i := i ≠ k
  geo := ⟨true, true, 5⟩
  cal := ⟨true, true, 4⟩
  dlp := ⟨true, true, 3⟩
  tau := some ⟨true, true, 2⟩
  chord := false
  interp := false

/-- One block is live already. -/
def startMem : Mem := ⟨⟨fun p => if p = 0 then some () else none, 1⟩, 0⟩

theorem startMem_sound : SoundHeap startMem.heap := by
  intro p hp
  have : p ≠ 0 := by
    have : 1 ≤ p := hp
    omega
  simp [startMem, this]

theorem failAt_main (k : Nat) (M : CsvKind) : MainFilesUsable M (failAt k) := by
  refine ⟨⟨rfl, rfl, ?_⟩, fun _ => ⟨rfl, rfl, ?_⟩, rfl, rfl, ?_⟩ <;> exact Nat.succ_ne_zero _

theorem failAt_tau (k : Nat) : ∀ f, (failAt k).tau = some f → Usable f := by
  intro f hf; cases hf; exact ⟨rfl, rfl, by decide⟩

theorem failAt_succeed {k c n : Nat} (h : k < c ∨ c + n ≤ k) : AllSucceed (failAt k).A c n := by
  intro i hi
  show decide (c + i ≠ k) = true
  rw [decide_eq_true_eq]; omega

/-- `C43_cassini_partial`: an allocation in the middle of the geometry file fails. -/
example : ¬ TauObjectFails (.cassini false) (failAt 7) startMem.calls ∧ ¬ CopyFails (.cassini false) (failAt 7) startMem.calls ∧
    SoundHeap startMem.heap := by
  refine ⟨fun h => ?_, fun h => ?_, startMem_sound⟩
  · exact absurd (h.2.2.1 7 (by decide)) (by decide)
  · exact absurd (h.1.2.2 7 (by decide)) (by decide)

/-- `C43_complete`: nothing fails. -/
example (M : CsvKind) : ReadComplete M (failAt 1000) startMem.calls ∧
    AllSucceed (failAt 1000).A (startMem.calls + callsBeforeCopies M (failAt 1000)) (copies M (failAt 1000)) :=
  ⟨⟨failAt_main _ _, failAt_tau _, failAt_succeed (.inr (by rcases M with ⟨_ | _⟩ | _ <;> decide))⟩,
    failAt_succeed (.inr (by rcases M with ⟨_ | _⟩ | _ <;> decide))⟩

/-- `C43_copy_false`: the sixth array for an interpolated column cannot be allocated (`x` of the position, Cassini). -/
example : CopyFails (.cassini false) (failAt 59) startMem.calls :=
  ⟨⟨failAt_main _ _, failAt_tau _, failAt_succeed (.inr (by decide))⟩, fun h => absurd (h 5 (by decide)) (by decide)⟩

example : ownExtract (.cassini false) (failAt 59) startMem = .ub .doubleFree := by
  refine C43_copy_false _ _ _ startMem_sound ⟨⟨failAt_main _ _, failAt_tau _, failAt_succeed (.inr (by decide))⟩,
    fun h => absurd (h 5 (by decide)) (by decide)⟩

/-- `C43_tau_false`. -/
example (M : CsvKind) : TauObjectFails M (failAt (callsBeforeTau M)) startMem.calls :=
  ⟨(by intro h; cases h), failAt_main _ _, failAt_succeed (.inr (by rcases M with ⟨_ | _⟩ | _ <;> decide)),
    by rcases M with ⟨_ | _⟩ | _ <;> decide⟩

/-- `C43_uranus_false`: the first array of the DLP object cannot be allocated. -/
example : (failAt 22).A startMem.calls = true ∧ ¬ TauObjectFails .uranus (failAt 22) startMem.calls ∧
    ¬ ReadComplete .uranus (failAt 22) startMem.calls :=
  ⟨by decide, fun h => absurd (h.2.2.1 22 (by decide)) (by decide), fun h => absurd (h.2.2 22 (by decide)) (by decide)⟩

end Verif
