import Verif.Model.BatchJobs
import Verif.Props.C122
import Verif.Props.C127
import Verif.Props.C141
import Verif.Props.C145

/-!
# C170 to C173: the jobs of a parallel batch, the DLP file and the directory that a job finds, and the GEO file of a TAU file

pipeline/construct_batch_parallel_CSVtoTAU_20260130.py, pipeline/batch_parallel_CSVtoTAU_template-20260130a.py, pipeline/edge_fit_batch.py.
-/
namespace Verif.Jobs
open Verif Verif.Web Verif.Rev Verif.Out

namespace Spec

/-- The files of the archive for a Rev; lines with `#` are comments. -/
def profiles (archive : List (List Char)) (rev : List Char) : List (List Char) :=
  archive.filter fun p => decide ('#' ∉ p) && decide (rev <:+: p)

/-- The file is of this band, station and direction: `RSS_2005_123_K34_E_...`. -/
def Is (p : List Char) (band : Char) (st : List Char) (dir : Char) : Prop :=
  (basename p)[13]? = some band ∧ ((basename p).drop 14).take 2 = st ∧ (basename p)[17]? = some dir

/-- The name is long enough for band and direction. -/
def Named (p : List Char) : Prop := 18 ≤ (basename p).length

end Spec
open Verif.Jobs.Spec (profiles Is Named)

theorem hash_infix {p : List Char} : ['#'] <:+: p ↔ '#' ∈ p := by
  constructor
  · exact fun h => h.subset (by simp)
  · intro h
    obtain ⟨a, b, rfl⟩ := List.append_of_mem h
    exact ⟨a, b, by simp⟩

theorem matched_eq (archive : List (List Char)) (rev : List Char) : matched archive rev = profiles archive rev := by
  rw [profiles, matched]
  refine List.filter_congr fun p _ => ?_
  rw [Bool.eq_iff_iff]
  simp [hash_infix]

theorem tab_many {archive : List (List Char)} {rev : List Char} (h : (profiles archive rev).length ≠ 1) :
    (tabFiles archive rev).each = profiles archive rev := by
  rw [tabFiles, matched_eq]
  split
  · rename_i e
    rw [e] at h
    exact absurd rfl h
  · rfl

/-- The stations of the files of a band and a direction. -/
def wanted (l : List (List Char)) (rev : List Char) (dir band : Char) : List (List Char) :=
  (l.filter fun p => decide (rev <:+: p ∧ band = (basename p)[13]?.getD ' ' ∧ dir = (basename p)[17]?.getD ' ')).map
    fun p => band :: slice 14 16 (basename p)

theorem stations_eq {rev : List Char} {dir band : Char} : ∀ {l : List (List Char)}, (∀ p ∈ l, Named p) →
    stations rev dir band l = some (wanted l rev dir band)
  | [], _ => rfl
  | p :: l, h => by
    have hp : 18 ≤ (basename p).length := h p List.mem_cons_self
    have h1 : (basename p)[13]? = some ((basename p)[13]'(by omega)) := List.getElem?_eq_getElem _
    have h2 : (basename p)[17]? = some ((basename p)[17]'(by omega)) := List.getElem?_eq_getElem _
    rw [stations, stations_eq fun q hq => h q (List.mem_cons_of_mem _ hq), h1, h2]
    simp only [Option.map_some, wanted, List.filter_cons, h1, h2, Option.getD_some, decide_eq_true_eq]
    split <;> rfl

/-- All the jobs of a Rev and a direction. -/
def ofBands (archive : List (List Char)) (res : ℚ) (rev : List Char) (dir : Char) (bands : List Char) : List Job :=
  (bands.filter fun b => decide (¬ (b = 'S' ∧ res < 1 / 5))).flatMap fun b =>
    (wanted (profiles archive rev) rev dir b).map fun d => ⟨res, rev, dir, d⟩

theorem bandJobs_eq {archive : List (List Char)} {res : ℚ} {rev : List Char} {dir : Char} (h1 : (profiles archive rev).length ≠ 1)
    (h2 : ∀ p ∈ profiles archive rev, Named p) : ∀ bands : List Char, bandJobs archive res rev dir bands = some (ofBands archive res rev dir bands)
  | [] => rfl
  | b :: bands => by
    rw [bandJobs, bandJobs_eq h1 h2 bands]
    by_cases hb : b = 'S' ∧ res < 1 / 5
    · rw [if_pos hb, ofBands, ofBands, List.filter_cons_of_neg (by simpa using hb)]
    · rw [if_neg hb, tab_many h1, stations_eq h2]
      simp only [Option.map_some]
      rw [ofBands, ofBands, List.filter_cons_of_pos (by rw [decide_eq_true_eq]; exact hb), List.flatMap_cons]

theorem dirJobs_eq {archive : List (List Char)} {res : ℚ} {rev bands : List Char} (h1 : (profiles archive rev).length ≠ 1)
    (h2 : ∀ p ∈ profiles archive rev, Named p) : ∀ dirs : List Char,
      dirJobs archive res rev bands dirs = some (dirs.flatMap fun d => ofBands archive res rev d bands)
  | [] => rfl
  | d :: dirs => by
    rw [dirJobs, bandJobs_eq h1 h2, dirJobs_eq h1 h2 dirs]
    rfl

theorem revJobs_eq {archive : List (List Char)} {res : ℚ} {bands dirs : List Char} : ∀ {revs : List (List Char)},
    (∀ rev ∈ revs, (profiles archive rev).length ≠ 1) → (∀ rev ∈ revs, ∀ p ∈ profiles archive rev, Named p) →
      revJobs archive res bands dirs revs = some (revs.flatMap fun v => dirs.flatMap fun d => ofBands archive res v d bands)
  | [], _, _ => rfl
  | v :: revs, h1, h2 => by
    rw [revJobs, dirJobs_eq (h1 v List.mem_cons_self) (h2 v List.mem_cons_self),
      revJobs_eq (fun r hr => h1 r (List.mem_cons_of_mem _ hr)) (fun r hr => h2 r (List.mem_cons_of_mem _ hr))]
    rfl

theorem jobs_eq {archive : List (List Char)} {bands dirs : List Char} {revs : List (List Char)}
    (h1 : ∀ rev ∈ revs, (profiles archive rev).length ≠ 1) (h2 : ∀ rev ∈ revs, ∀ p ∈ profiles archive rev, Named p) : ∀ xs : List ℚ,
      jobs archive bands dirs revs xs =
        some (xs.flatMap fun x => revs.flatMap fun v => dirs.flatMap fun d => ofBands archive x v d bands)
  | [] => rfl
  | x :: xs => by
    rw [jobs, revJobs_eq h1 h2, jobs_eq h1 h2 xs]
    rfl

theorem mem_ofBands {archive : List (List Char)} {res : ℚ} {rev : List Char} {dir : Char} {bands : List Char}
    (h2 : ∀ p ∈ profiles archive rev, Named p) (j : Job) :
    j ∈ ofBands archive res rev dir bands ↔ j.res = res ∧ j.rev = rev ∧ j.dir = dir ∧
      ∃ b st, j.dsn = b :: st ∧ b ∈ bands ∧ ¬ (b = 'S' ∧ res < 1 / 5) ∧ ∃ p ∈ profiles archive rev, Is p b st dir := by
  have key : ∀ p ∈ profiles archive rev, ∀ b d : Char, (b = (basename p)[13]?.getD ' ' ↔ (basename p)[13]? = some b) ∧
      (d = (basename p)[17]?.getD ' ' ↔ (basename p)[17]? = some d) := by
    intro p hp b d
    have hl : 18 ≤ (basename p).length := h2 p hp
    have h1 : (basename p)[13]? = some ((basename p)[13]'(by omega)) := List.getElem?_eq_getElem _
    have h2 : (basename p)[17]? = some ((basename p)[17]'(by omega)) := List.getElem?_eq_getElem _
    rw [h1, h2]
    simp only [Option.getD_some, Option.some_inj]
    exact ⟨eq_comm, eq_comm⟩
  simp only [ofBands, wanted, List.mem_flatMap, List.mem_filter, List.mem_map, decide_eq_true_eq]
  constructor
  · rintro ⟨b, ⟨hb1, hb2⟩, st, ⟨p, ⟨hp1, -, hp2, hp3⟩, rfl⟩, rfl⟩
    obtain ⟨k1, k2⟩ := key p hp1 b dir
    exact ⟨rfl, rfl, rfl, b, _, rfl, hb1, hb2, p, hp1, k1.mp hp2, rfl, k2.mp hp3⟩
  · rintro ⟨rfl, rfl, rfl, b, st, hd, hb1, hb2, p, hp1, hp2, hp3, hp4⟩
    obtain ⟨k1, k2⟩ := key p hp1 b j.dir
    have hrev : j.rev <:+: p := by
      rw [profiles, List.mem_filter] at hp1
      simpa using (Bool.and_eq_true_iff.mp hp1.2).2
    refine ⟨b, ⟨hb1, hb2⟩, b :: st, ⟨p, ⟨hp1, hrev, k1.mpr hp2, k2.mpr hp4⟩, by rw [slice, hp3]⟩, ?_⟩
    cases j
    simp only at hd ⊢
    rw [hd]

/-- **C170, in part.** If no Rev has a single file, there are jobs exactly for the files of the archive that are of a band, a direction, a Rev
and a resolution that is asked for, without S band finer than 200 m. -/
theorem C170_all_partial {archive : List (List Char)} {bands dirs : List Char} {revs : List (List Char)} {xs : List ℚ}
    (h1 : ∀ rev ∈ revs, (profiles archive rev).length ≠ 1) (h2 : ∀ rev ∈ revs, ∀ p ∈ profiles archive rev, Named p) :
    ∃ js, jobs archive bands dirs revs xs = some js ∧ ∀ j : Job, j ∈ js ↔ j.res ∈ xs ∧ j.rev ∈ revs ∧ j.dir ∈ dirs ∧
      ∃ b st, j.dsn = b :: st ∧ b ∈ bands ∧ ¬ (b = 'S' ∧ j.res < 1 / 5) ∧ ∃ p ∈ profiles archive j.rev, Is p b st j.dir := by
  refine ⟨_, jobs_eq h1 h2 xs, fun j => ?_⟩
  simp only [List.mem_flatMap]
  constructor
  · rintro ⟨x, hx, v, hv, d, hd, hj⟩
    obtain ⟨rfl, rfl, rfl, h⟩ := (mem_ofBands (h2 v hv) j).mp hj
    exact ⟨hx, hv, hd, h⟩
  · rintro ⟨hx, hv, hd, h⟩
    exact ⟨_, hx, _, hv, _, hd, (mem_ofBands (h2 _ hv) j).mpr ⟨rfl, rfl, rfl, h⟩⟩

/-- Two files of a Rev. -/
def two : List (List Char) :=
  ["# comment".toList, "Rev007/RSS_2005_123_K34_E_TAU_01KM.TAB".toList, "Rev007/RSS_2005_123_S43_E_TAU_01KM.TAB".toList]

/-- The hypotheses hold for a Rev with two files, one of them of S band. -/
example : (∀ rev ∈ ["Rev007".toList], (profiles two rev).length ≠ 1) ∧ (∀ rev ∈ ["Rev007".toList], ∀ p ∈ profiles two rev, Named p) := by
  unfold Named
  decide +kernel

example : jobs two ['X', 'K', 'S'] ['I', 'E'] ["Rev007".toList] [1, 1 / 10] =
    some [⟨1, "Rev007".toList, 'E', "K34".toList⟩, ⟨1, "Rev007".toList, 'E', "S43".toList⟩, ⟨1 / 10, "Rev007".toList, 'E', "K34".toList⟩] := by
  decide +kernel

theorem nodup_flat {α β γ : Type} {l : List α} {f : α → List β} {g : β → γ} {e : α → γ} (he : Function.Injective e) (hl : l.Nodup)
    (hf : ∀ a ∈ l, (f a).Nodup) (hg : ∀ a ∈ l, ∀ b ∈ f a, g b = e a) : (l.flatMap f).Nodup := by
  rw [List.nodup_flatMap]
  refine ⟨hf, ?_⟩
  rw [List.Nodup] at hl
  refine hl.imp_of_mem fun {a b} ha hb hab => ?_
  intro x hxa hxb
  exact hab (he ((hg a ha x hxa).symm.trans (hg b hb x hxb)))

/-- **C170.** No job is written twice, if no two files of a Rev are of the same band, station and direction. -/
theorem C170_once {archive : List (List Char)} {bands dirs : List Char} {revs : List (List Char)} {xs : List ℚ}
    (h1 : ∀ rev ∈ revs, (profiles archive rev).length ≠ 1) (h2 : ∀ rev ∈ revs, ∀ p ∈ profiles archive rev, Named p)
    (hx : xs.Nodup) (hr : revs.Nodup) (hd : dirs.Nodup) (hb : bands.Nodup)
    (hp : ∀ rev ∈ revs, (profiles archive rev).Pairwise fun p q => ∀ b st d, Is p b st d → ¬ Is q b st d) {js : List Job}
    (hj : jobs archive bands dirs revs xs = some js) : js.Nodup := by
  rw [jobs_eq h1 h2 xs, Option.some_inj] at hj
  subst hj
  refine nodup_flat (g := Job.res) (e := id) Function.injective_id hx (fun x _ => ?_) fun x _ j h => ?_
  · refine nodup_flat (g := Job.rev) (e := id) Function.injective_id hr (fun v hv => ?_) fun v hv j h => ?_
    · refine nodup_flat (g := Job.dir) (e := id) Function.injective_id hd (fun d _ => ?_) fun d _ j h => ((mem_ofBands (h2 v hv) j).mp h).2.2.1
      rw [ofBands]
      refine nodup_flat (g := fun j => j.dsn.head?) (e := some) (Option.some_injective _) (hb.filter _) (fun b _ => ?_) fun b _ j h => ?_
      · refine List.Nodup.map (fun a c h => (Job.mk.inj h).2.2.2) ?_
        rw [wanted, List.Nodup, List.pairwise_map]
        refine ((hp v hv).filter _).imp_of_mem fun {p q} hp' hq' hpq he => ?_
        simp only [List.mem_filter, decide_eq_true_eq] at hp' hq'
        have key : ∀ p ∈ profiles archive v, b = (basename p)[13]?.getD ' ' → d = (basename p)[17]?.getD ' ' →
            Is p b (((basename p).drop 14).take 2) d := by
          intro p hp e1 e2
          have hl : 18 ≤ (basename p).length := h2 v hv p hp
          have k1 : (basename p)[13]? = some ((basename p)[13]'(by omega)) := List.getElem?_eq_getElem _
          have k2 : (basename p)[17]? = some ((basename p)[17]'(by omega)) := List.getElem?_eq_getElem _
          rw [k1, Option.getD_some] at e1
          rw [k2, Option.getD_some] at e2
          exact ⟨by rw [k1, e1], rfl, by rw [k2, e2]⟩
        refine hpq b _ d (key p hp'.1 hp'.2.2.1 hp'.2.2.2) ?_
        have := key q hq'.1 hq'.2.2.1 hq'.2.2.2
        rw [← show slice 14 16 (basename q) = ((basename q).drop 14).take 2 from rfl, ← (List.cons.inj he).2] at this
        exact this
      · simp only [wanted, List.mem_map] at h
        obtain ⟨s, ⟨p, -, rfl⟩, rfl⟩ := h
        rfl
    · rw [List.mem_flatMap] at h
      obtain ⟨d, -, h⟩ := h
      exact ((mem_ofBands (h2 v hv) j).mp h).2.1
  · simp only [List.mem_flatMap] at h
    obtain ⟨v, hv, d, -, h⟩ := h
    exact ((mem_ofBands (h2 v hv) j).mp h).1

/-- The two files are of different bands. -/
example : (profiles two "Rev007".toList).Pairwise fun p q => ∀ b st d, Is p b st d → ¬ Is q b st d := by
  have h : (profiles two "Rev007".toList).Pairwise fun p q => (basename p)[13]? ≠ (basename q)[13]? := by decide +kernel
  exact h.imp fun hpq b st d h1 h2 => hpq (h1.1.trans h2.1.symm)

theorem base_char (c : Char) : (basename [c]).length ≤ 1 := by
  rw [basename, List.length_reverse]
  exact (List.takeWhile_prefix _).length_le

theorem one_none {rev p : List Char} {dir band : Char} (hp : p ≠ []) : stations rev dir band (p.map fun c => [c]) = none := by
  cases p with
  | nil => exact absurd rfl hp
  | cons c p =>
    rw [List.map_cons, stations, List.getElem?_eq_none (i := 13) (by have := base_char c; omega)]

theorem band_none {archive : List (List Char)} {res : ℚ} {rev : List Char} {dir : Char} (h : ∀ b, stations rev dir b (tabFiles archive rev).each = none) :
    ∀ {bands : List Char}, (∃ b ∈ bands, b ≠ 'S') → bandJobs archive res rev dir bands = none
  | [], hb => by simp at hb
  | b :: bands, hb => by
    rw [bandJobs, h b]
    split
    · rename_i hs
      refine band_none h ?_
      obtain ⟨c, hc, hc'⟩ := hb
      rcases List.mem_cons.mp hc with rfl | hc
      · exact absurd hs.1 hc'
      · exact ⟨c, hc, hc'⟩
    · rfl

theorem dir_none {archive : List (List Char)} {res : ℚ} {rev bands : List Char} (h : ∀ d, bandJobs archive res rev d bands = none) :
    ∀ {dirs : List Char}, dirs ≠ [] → dirJobs archive res rev bands dirs = none
  | [], hd => absurd rfl hd
  | d :: dirs, _ => by rw [dirJobs, h d]

theorem rev_none {archive : List (List Char)} {res : ℚ} {bands dirs rev : List Char} (h : dirJobs archive res rev bands dirs = none) :
    ∀ {revs : List (List Char)}, rev ∈ revs → revJobs archive res bands dirs revs = none
  | [], hr => by cases hr
  | v :: revs, hr => by
    rw [revJobs]
    rcases List.mem_cons.mp hr with rfl | hr
    · rw [h]
    · cases dirJobs archive res v bands dirs with
      | none => rfl
      | some l => simp only [rev_none h hr, Option.map_none]

theorem C170_none {archive : List (List Char)} {bands dirs : List Char} {revs : List (List Char)}
    (h : ∀ x, revJobs archive x bands dirs revs = none) : ∀ {xs : List ℚ}, xs ≠ [] → jobs archive bands dirs revs xs = none
  | [], hx => absurd rfl hx
  | x :: xs, _ => by rw [jobs, h x]

/-- **C170, in general, is false.** A Rev with a single file ends the driver program with an exception: the path is gone through
character by character. -/
theorem C170_single_false {archive : List (List Char)} {bands dirs : List Char} {revs : List (List Char)} {xs : List ℚ} {rev : List Char}
    (h0 : rev ≠ []) (hr : rev ∈ revs) (h1 : (profiles archive rev).length = 1) (hb : ∃ b ∈ bands, b ≠ 'S') (hd : dirs ≠ []) (hx : xs ≠ []) :
    jobs archive bands dirs revs xs = none := by
  obtain ⟨p, hp⟩ := List.length_eq_one_iff.mp h1
  have hpn : p ≠ [] := by
    rintro rfl
    have : ([] : List Char) ∈ profiles archive rev := by rw [hp]; simp
    rw [profiles, List.mem_filter] at this
    have h2 := (Bool.and_eq_true_iff.mp this.2).2
    rw [decide_eq_true_eq] at h2
    exact h0 (List.eq_nil_of_infix_nil h2)
  have he : (tabFiles archive rev).each = p.map fun c => [c] := by
    rw [tabFiles, matched_eq, hp]
    rfl
  exact C170_none (fun x => rev_none (dir_none (fun d => band_none (fun b => by rw [he]; exact one_none hpn) hb) hd) hr) hx

/-- The first file of the two alone. -/
example : jobs (two.take 2) ['X', 'K', 'S'] ['I', 'E'] ["Rev007".toList] [1] = none :=
  C170_single_false (rev := "Rev007".toList) (by decide +kernel) (by simp) (by decide +kernel) ⟨'X', by simp, by decide⟩ (by simp) (by simp)

end Verif.Jobs
