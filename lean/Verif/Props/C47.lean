import Verif.Props.C45
import Mathlib.Analysis.SpecialFunctions.Trigonometric.Basic
import Mathlib.Analysis.SpecialFunctions.Log.Basic

/-!
# C47, C48: the combined columns
-/
namespace Verif
open Spec Data

/-! ### Objects read without error -/

theorem readRows_sized (V : CsvLib) {k : Kind} {dep : Bool} {ls : List (List Char)} {o o' : Csv} {n : Nat}
    (hS : Sized o (readOrder k dep) n) (h : readRows V (readOrder k dep) ls 0 o = .ok o') :
    SameButArr o o' ∧ Sized o' (readOrder k dep) n := by
  have hc : (∀ s ∈ ls, (readOrder k dep).length ≤ (tokens s).length) ∧ ls.length ≤ n := by
    by_contra hc
    refine readRows_bad V (readOrder_nodup k dep) (readOrder_ne_nil k dep) ls 0 o hS (Nat.zero_le _) ?_ ⟨o', h⟩
    rw [Classical.not_and_iff_not_or_not] at hc
    rcases hc with hc | hc
    · push Not at hc; exact .inl hc
    · exact .inr (by omega)
  obtain ⟨o'', e, hr⟩ := readRows_ok V (readOrder_nodup k dep) ls 0 o hS (by omega) hc.1
  rw [h] at e; cases e
  refine ⟨hr.same, fun c hc => ?_⟩
  obtain ⟨j, hj⟩ := List.getElem?_of_mem hc
  obtain ⟨l, l', a, b, d, -, -⟩ := hr.vals j c hj
  obtain ⟨l0, e0, hl0⟩ := hS c hc
  rw [a] at e0; cases e0
  exact ⟨l', b, by omega⟩

theorem readData_error (V : CsvLib) (k : Kind) (fp : Option (List Char)) {o : Csv} (h : o.err ≠ none) :
    readData V k fp o = .ok o := by
  unfold readData; rw [if_pos (Option.isSome_iff_ne_none.2 h)]

theorem allocCols_bad (V : CsvLib) : ∀ (cs : List Col) (o : Csv), (∃ c ∈ cs, V.mem c = false) →
    (Verif.allocCols V cs o).err ≠ none := by
  intro cs
  induction cs with
  | nil => rintro o ⟨c, hc, -⟩; cases hc
  | cons c cs ih =>
    rintro o ⟨c', hc, hm⟩
    rw [Verif.allocCols]
    split
    · rename_i h
      refine ih _ ⟨c', ?_, hm⟩
      rw [List.mem_cons] at hc
      rcases hc with rfl | hc
      · rw [h] at hm; cases hm
      · exact hc
    · simp

/-- A file (not of the merged format) that was read without error has rows, and all its columns have one
entry per row. -/
theorem csvExtract_sized {V : CsvLib} {k : Kind} (hk : k ≠ .merged) {dep radians : Bool} {fp : Option (List Char)}
    {x : Csv} (h : csvExtract V k dep radians fp = .ok x) (he : x.err = none) :
    x.n ≠ 0 ∧ Sized x (readOrder k dep) x.n := by
  cases fp with
  | none => simp only [csvExtract, Res.ok.injEq] at h; rw [← h] at he; cases he
  | some f =>
    by_cases hc : V.columnCount f = documentedColumns k dep
    swap
    · have h1 : (checkColumnCount V k (some f) { csvInit with dep := dep, radians := radians }).err ≠ none := by
        intro hh
        obtain ⟨f', e, h2⟩ := ((C40_check V k (some f) { csvInit with dep := dep, radians := radians }).1 rfl).1 hh
        cases e
        exact hc h2
      have h2 : csvMalloc V k (some f) (checkColumnCount V k (some f) { csvInit with dep := dep, radians := radians }) =
          checkColumnCount V k (some f) { csvInit with dep := dep, radians := radians } := by
        unfold csvMalloc; rw [if_pos (Option.isSome_iff_ne_none.2 h1)]
      simp only [csvExtract] at h
      rw [h2, readData_error V k _ h1] at h
      cases h
      exact absurd he h1
    · have h0 : checkColumnCount V k (some f) { csvInit with dep := dep, radians := radians } =
          { csvInit with dep := dep, radians := radians } := by
        have h1 := ((C40_check V k (some f) { csvInit with dep := dep, radians := radians }).1 rfl).2
          ⟨f, rfl, hc⟩
        rcases (C40_check V k (some f) { csvInit with dep := dep, radians := radians }).2.2 with h | ⟨e, h⟩
        · exact h
        · rw [h] at h1; cases h1
      have bad : (csvMalloc V k (some f) { csvInit with dep := dep, radians := radians }).err ≠ none → False := by
        intro hb
        simp only [csvExtract] at h
        rw [h0, readData_error V k _ hb] at h
        cases h
        exact hb he
      have hn : V.lineCount f ≠ 0 := by
        intro hz
        apply bad
        simp [csvMalloc, csvInit, hz, Csv.fail]
      have hm : ∀ c ∈ allocOrder k dep, V.mem c = true := by
        by_contra hcc
        push Not at hcc
        obtain ⟨c, h1, h2⟩ := hcc
        apply bad
        simp only [csvMalloc, csvInit, Option.isSome_none, Bool.false_eq_true, if_false, hn]
        exact allocCols_bad V _ _ ⟨c, h1, by simpa using h2⟩
      obtain ⟨o, hA, e⟩ := extract_eq (radians := radians) hc hn hm
      rw [e] at h
      have hread : ∃ o', readRows V (readOrder k dep) (lines f) 0 o = .ok o' ∧
          (x = o' ∨ k = .uranus ∧ toDegrees V o' = .ok x) := by
        unfold readData at h
        rw [hA.err] at h
        simp only [Option.isSome_none, Bool.false_eq_true, if_false, hA.hn, hn, hA.hdep] at h
        cases k <;> first
          | exact absurd rfl hk
          | exact ⟨x, h, .inl rfl⟩
          | exact (Res.bind_eq_ok.1 h).imp fun o' h => ⟨h.1, .inr ⟨rfl, h.2⟩⟩
      obtain ⟨o', e', hx⟩ := hread
      obtain ⟨hs, hS⟩ := readRows_sized V hA.sized e'
      rcases hx with rfl | hx
      · rw [hs.n, hA.hn]
        exact ⟨hn, hS⟩
      · obtain ⟨rfl, hx⟩ := hx
        unfold toDegrees at hx
        split at hx
        · have hang : Sized o' angleCols (0 + o'.n) := fun c hc => by
            rw [Nat.zero_add, hs.n, hA.hn]
            refine hS c ?_
            show c ∈ readOrder .uranus false
            revert hc; revert c; decide
          obtain ⟨o2, e2, hs2, h1, h2⟩ := scaleRows_ok V o'.n 0 o' hang
          rw [e2, Res.ok_bind] at hx
          cases hx
          show o2.n ≠ 0 ∧ Sized o2 _ o2.n
          rw [hs2.n, hs.n, hA.hn]
          refine ⟨hn, fun c hc => ?_⟩
          obtain ⟨l, e, hl⟩ := hS c hc
          by_cases hca : c ∈ angleCols
          · obtain ⟨l', a, b⟩ := h1 c hca
            rw [e] at a; cases a
            exact ⟨_, b, by simp [hl]⟩
          · exact ⟨l, (h2 c hca).trans e, hl⟩
        · cases hx
          rw [hs.n, hA.hn]
          exact ⟨hn, hS⟩

/-! ### The stages -/

/-- The entries of a column. -/
def Csv.col (x : Csv) (c : Col) : List Dbl := (x.arr c).getD []

theorem sized_col {x : Csv} {cols : List Col} {n : Nat} (h : Sized x cols n) {c : Col} (hc : c ∈ cols) :
    x.arr c = some (x.col c) ∧ (x.col c).length = n := by
  obtain ⟨l, e, hl⟩ := h c hc
  have : x.col c = l := by rw [Csv.col, e]; rfl
  rw [this]
  exact ⟨e, hl⟩

/-- Everything but the arrays is the same. -/
structure SameData (o o' : CsvData) : Prop where
  err : o'.err = o.err
  n : o'.n = o.n
  inc : o'.inc = o.inc
  dec : o'.dec = o.dec
  file : o'.file = o.file
  dep : o'.dep = o.dep

theorem fill_zip (f : Dbl → Dbl → Dbl) {xs ys : List Dbl} {n : Nat} (hx : xs.length = n) (hy : ys.length = n) :
    fill (fun i => do
      let a ← rdP (some xs) i
      let b ← rdP (some ys) i
      .ok (f a b)) 0 n = .ok (List.zipWith f xs ys) := by
  rw [fill_ok _ (fun i => f (xs.getD i .nan) (ys.getD i .nan))]
  · congr 1
    apply List.ext_getElem
    · simp [hx, hy]
    · intro i h1 h2
      have h1' : i < n := by simpa using h1
      simp [List.getD_eq_getElem?_getD, hx, hy, h1']
  · intro i _ hi
    simp only [rdP_some]
    rw [rd_lt (by omega), Res.ok_bind, rd_lt (by omega), Res.ok_bind]
    simp [List.getD_eq_getElem?_getD, hx, hy, (by omega : i < n)]

theorem steal_ok (L : DataLib) (M : Mission) {o : CsvData} {d : Csv} (he : o.err = none) (hd : o.file .dlp = some d)
    (hde : d.err = none) (hS : Sized d (readOrder (format M .dlp) o.dep) d.n) (hn : o.n = d.n)
    (hm : L.mem .pNorm = true) :
    ∃ o', steal L M o = .ok o' ∧ SameData o o' ∧ (∀ c ∈ stealCols M, o'.arr c = d.arr c) ∧
      (M = .cassini → o'.arr .pNorm = some (if o.dep then
        List.zipWith (powerOf L.pow) (d.col .rawTau) (d.col .B) else d.col .pNorm)) := by
  unfold steal
  rw [if_neg (by simp [he]), hd]
  simp only [hde, Option.isSome_none, Bool.false_eq_true, if_false]
  cases M with
  | uranus => exact ⟨_, rfl, ⟨rfl, rfl, rfl, rfl, rfl, rfl⟩, fun c hc => by simp [hc], nofun⟩
  | cassini =>
    have hne : ∀ c ∈ stealCols .cassini, c ≠ .pNorm := by decide
    cases hdep : o.dep
    · refine ⟨_, rfl, ⟨rfl, rfl, rfl, rfl, rfl, hdep.symm⟩, fun c hc => ?_, fun _ => ?_⟩
      · simp only [put, hne c hc, if_false, hc, if_true]
      · rw [hdep] at hS
        simp only [put, if_true, Bool.false_eq_true, if_false]
        exact (sized_col hS (by decide)).1
    · rw [hdep] at hS
      obtain ⟨e1, l1⟩ := sized_col hS (c := .B) (by decide)
      obtain ⟨e2, l2⟩ := sized_col hS (c := .rawTau) (by decide)
      simp only [hm, Bool.not_true, Bool.false_eq_true, if_false]
      have er : (if Col.rawTau ∈ stealCols .cassini then d.arr .rawTau else o.arr .rawTau) = some (d.col .rawTau) := by
        rw [if_pos (by decide)]; exact e2
      simp only [er, e1, hn]
      rw [fill_zip (fun B t => powerOf L.pow t B) l1 l2, Res.ok_bind, List.zipWith_comm]
      refine ⟨_, rfl, ⟨rfl, hn.symm, rfl, rfl, rfl, hdep.symm⟩, fun c hc => ?_, fun _ => ?_⟩
      · simp only [put, hne c hc, if_false, hc, if_true]
      · simp only [put, if_true]

theorem allocCols_data (L : DataLib) (hm : ∀ c, L.mem c = true) : ∀ (cs : List Col) (o : CsvData),
    ∃ o', Data.allocCols L cs o = .ok o' ∧ SameData o o' ∧ (∀ c, c ∉ cs → o'.arr c = o.arr c) ∧
      ∀ c ∈ cs, ∃ l, o'.arr c = some l ∧ l.length = o.n := by
  intro cs
  induction cs with
  | nil => intro o; exact ⟨o, rfl, ⟨rfl, rfl, rfl, rfl, rfl, rfl⟩, fun _ _ => rfl, nofun⟩
  | cons c cs ih =>
    intro o
    rw [Data.allocCols, if_pos (hm c)]
    obtain ⟨o', e, hs, h1, h2⟩ := ih (put o c (some ((List.range o.n).map (L.junk c))))
    refine ⟨o', e, ⟨hs.err, hs.n, hs.inc, hs.dec, hs.file, hs.dep⟩, fun c' hc' => ?_, fun c' hc' => ?_⟩
    · rw [List.mem_cons, not_or] at hc'
      rw [h1 c' hc'.2]
      simp [put, hc'.1]
    · by_cases hcc : c' ∈ cs
      · exact h2 c' hcc
      · rw [List.mem_cons] at hc'
        rcases hc' with rfl | hc'
        · rw [h1 _ hcc]
          exact ⟨_, by simp [put]; rfl, by simp⟩
        · exact absurd hc' hcc

/-- The five interpolations of the geometry. -/
theorem interpAll_ok (L : DataLib) {g : Csv} {off len : Nat} (hg : Sized g (.rho :: geoCols) (off + len)) :
    ∀ (cs : List Col) (o : CsvData) (ns : List Dbl), cs.Nodup → (∀ c ∈ cs, c ∈ geoCols) → o.arr .rho = some ns →
    ns.length = o.n → (∀ c ∈ cs, ∃ l, o.arr c = some l ∧ l.length = o.n) →
    ∃ o', interpAll L g off len cs o = .ok o' ∧ SameData o o' ∧ (∀ c, c ∉ cs → o'.arr c = o.arr c) ∧
      ∀ c ∈ cs, o'.arr c = some (L.interp ((g.col .rho).drop off) ((g.col c).drop off) ns) := by
  intro cs
  induction cs with
  | nil => intro o ns _ _ _ _ _; exact ⟨o, rfl, ⟨rfl, rfl, rfl, rfl, rfl, rfl⟩, fun _ _ => rfl, nofun⟩
  | cons c cs ih =>
    intro o ns hnd hsub hr hl ho
    obtain ⟨e1, l1⟩ := sized_col hg (c := .rho) (by simp)
    obtain ⟨e2, l2⟩ := sized_col hg (c := c) (List.mem_cons_of_mem _ (hsub c (by simp)))
    obtain ⟨out, e3, l3⟩ := ho c (by simp)
    rw [List.nodup_cons] at hnd
    rw [interpAll, e1, e2, hr, e3, interpCall_ok L l1.symm l2.symm hl l3, Res.ok_bind]
    have hcr : Col.rho ≠ c := by
      intro h
      have := hsub c (by simp)
      rw [← h] at this
      exact absurd this (by decide)
    obtain ⟨o', e, hs, h1, h2⟩ := ih (put o c (some (L.interp ((g.col .rho).drop off) ((g.col c).drop off) ns))) ns
      hnd.2 (fun c' hc' => hsub c' (by simp [hc'])) (by simp [put, hcr, hr]) hl
      (fun c' hc' => by
        have : c' ≠ c := fun h => hnd.1 (h ▸ hc')
        obtain ⟨l, a, b⟩ := ho c' (by simp [hc'])
        exact ⟨l, by simp [put, this, a], b⟩)
    refine ⟨o', e, ⟨hs.err, hs.n, hs.inc, hs.dec, hs.file, hs.dep⟩, fun c' hc' => ?_, fun c' hc' => ?_⟩
    · rw [List.mem_cons, not_or] at hc'
      rw [h1 c' hc'.2]
      simp [put, hc'.1]
    · by_cases hcc : c' ∈ cs
      · exact h2 c' hcc
      · rw [List.mem_cons] at hc'
        rcases hc' with rfl | hc'
        · rw [h1 _ hcc]
          simp [put]
        · exact absurd hc' hcc

/-- The result of reading the optional optical depth file. -/
def TauRead (L : DataLib) (M : Mission) (dep radians : Bool) : Option (Option (List Char)) → Option Csv → Prop
  | none, none => True
  | some fp, some t => readOf L M dep radians (.tau, fp) = .ok t ∧ t.err = none
  | _, _ => False

/-- The object after the files have been read. -/
structure Loaded (M : Mission) (o : CsvData) (g d : Csv) (T : Option Csv) : Prop where
  err : o.err = none
  inc : o.inc = 0
  dec : o.dec = 0
  n : o.n = d.n
  geo : o.file .geo = some g
  dlp : o.file .dlp = some d
  tau : o.file .tau = T

/-- The optional columns: interpolated in radius; the power of the deprecated format is computed from the
interpolated optical depth. -/
structure TauColumns (L : DataLib) (dep : Bool) (d t : Csv) (o : CsvData) : Prop where
  phase : o.arr .tauPhase = some (L.interp (t.col .rho) (t.col .phase) (d.col .rho))
  tau : o.arr .tau = some (L.interp (t.col .rho) (t.col .tau) (d.col .rho))
  power : o.arr .tauPower = some (if dep then
    List.zipWith (powerOf L.pow) (L.interp (t.col .rho) (t.col .tau) (d.col .rho)) (d.col .B)
    else L.interp (t.col .rho) (t.col .power) (d.col .rho))

theorem interpTau_ok (L : DataLib) (hI : ∀ xs ys ns, (L.interp xs ys ns).length = ns.length) {o : CsvData} {d t : Csv}
    (he : o.err = none) (ht : o.file .tau = some t) (hte : t.err = none) (hS : Sized t (readOrder .tau o.dep) t.n)
    (hrho : o.arr .rho = some (d.col .rho)) (lrho : (d.col .rho).length = o.n)
    (hB : o.arr .B = some (d.col .B)) (lB : (d.col .B).length = o.n)
    (ho : ∀ c ∈ [Col.tauPhase, .tauPower, .tau], ∃ l, o.arr c = some l ∧ l.length = o.n) :
    ∃ o', interpTau L o = .ok o' ∧ SameData o o' ∧
      (∀ c, c ∉ [Col.tauPhase, .tauPower, .tau] → o'.arr c = o.arr c) ∧ TauColumns L o.dep d t o' := by
  have hc : ∀ c ∈ [Col.rho, .phase, .tau], c ∈ readOrder .tau o.dep := by
    cases o.dep <;> decide
  obtain ⟨e1, l1⟩ := sized_col hS (hc .rho (by simp))
  obtain ⟨e2, l2⟩ := sized_col hS (hc .phase (by simp))
  obtain ⟨e3, l3⟩ := sized_col hS (hc .tau (by simp))
  obtain ⟨a, ea, la⟩ := ho .tauPhase (by simp)
  obtain ⟨b, eb, lb⟩ := ho .tauPower (by simp)
  obtain ⟨c, ec, lc⟩ := ho .tau (by simp)
  unfold interpTau
  rw [if_neg (by simp [he]), ht]
  simp only [hte, Option.isSome_none, Bool.false_eq_true, if_false]
  rw [e1, e2, e3, hrho, ea, interpCall_ok L (by omega) (by omega) lrho la, Res.ok_bind]
  simp only [put, List.drop_zero]
  simp only [reduceCtorEq, if_false, hrho, ec]
  rw [interpCall_ok L (by omega) (by omega) lrho lc, Res.ok_bind]
  simp only [reduceCtorEq, if_false, hrho, eb, hB, List.drop_zero]
  cases hdep : o.dep
  · obtain ⟨e4, l4⟩ := sized_col hS (c := .power) (by rw [hdep]; decide)
    simp only [Bool.false_eq_true, if_false]
    rw [e4, interpCall_ok L (by omega) (by omega) lrho lb, Res.ok_bind]
    refine ⟨_, rfl, ⟨rfl, rfl, rfl, rfl, rfl, hdep.symm⟩, fun c' hc' => ?_, ⟨?_, ?_, ?_⟩⟩
    · simp only [List.mem_cons, List.not_mem_nil, or_false, not_or] at hc'
      simp [hc']
    · simp
    · simp
    · simp
  · simp only [if_true]
    rw [interpCall_ok L (by omega) (by omega) lrho lb, Res.ok_bind, List.drop_zero, List.drop_zero,
      fill_zip (fun B t => powerOf L.pow t B) lB ((hI _ _ _).trans lrho), Res.ok_bind, List.zipWith_comm]
    refine ⟨_, rfl, ⟨rfl, rfl, rfl, rfl, rfl, hdep.symm⟩, fun c' hc' => ?_, ⟨?_, ?_, ?_⟩⟩
    · simp only [List.mem_cons, List.not_mem_nil, or_false, not_or] at hc'
      simp [hc']
    · simp
    · simp
    · simp

theorem retained_eq (s : Side) {v l : List Dbl} (h : v.length = l.length) :
    s.retained v l = (s.order l).drop ((s.order v).findIdx fun x => !s.wrong x) := by
  unfold Side.retained
  refine dropWhile_zip s.wrong _ _ ?_
  cases s <;> simpa [Side.order] using h

/-- Steal_DLP_Data, Malloc, Check_Chord_Occ and Interpolate_Geo one after the other. -/
theorem combine_geo (L : DataLib) (M : Mission) (hm : ∀ c, L.mem c = true) {o : CsvData} {g d : Csv}
    {T : Option Csv} (h : Loaded M o g d T) (hge : g.err = none) (hde : d.err = none) (hn : d.n ≠ 0)
    (hgS : Sized g (readOrder .geo o.dep) g.n) (hdS : Sized d (readOrder (format M .dlp) o.dep) d.n)
    (s : Side) (hq : s.shows (quotients L.div L.sub (d.col .rho) (d.col .tSet)))
    (hx : ∃ x ∈ g.col .rhoDot, s.wrong x = false) :
    ∃ o', (do
        let o ← steal L M o
        let o ← malloc L M o
        let o ← checkChord L o
        interpGeo L o) = .ok o' ∧ o'.err = none ∧ o'.n = d.n ∧ o'.dep = o.dep ∧
      (∀ k, k ≠ .geo → o'.file k = o.file k) ∧
      (∀ c ∈ stealCols M, c ∉ geoCols → o'.arr c = some (d.col c) ∧ (d.col c).length = d.n) ∧
      (∀ c ∈ geoCols, o'.arr c = some (L.interp (s.retained (g.col .rhoDot) (g.col .rho))
        (s.retained (g.col .rhoDot) (g.col c)) (d.col .rho))) ∧
      (∀ c ∈ mallocCols M T.isSome, c ∉ geoCols → ∃ l, o'.arr c = some l ∧ l.length = d.n) ∧
      (M = .cassini → o'.arr .pNorm = some (if o.dep then
        List.zipWith (powerOf L.pow) (d.col .rawTau) (d.col .B) else d.col .pNorm)) := by
  have hrd : ∀ c ∈ stealCols M, c ∈ readOrder (format M .dlp) o.dep := by
    cases M <;> cases o.dep <;> decide
  have hgr : ∀ c ∈ reverseCols, c ∈ readOrder .geo o.dep := by cases o.dep <;> decide
  obtain ⟨o1, e1, s1, p1, q1⟩ := steal_ok L M h.err h.dlp hde hdS h.n (hm _)
  obtain ⟨o2, e2, s2, p2, q2⟩ := allocCols_data L hm (mallocCols M T.isSome) o1
  have e2' : malloc L M o1 = .ok o2 := by
    unfold malloc
    rw [if_neg (by simp [s1.err, h.err]), if_neg (by rw [s1.n, h.n]; exact hn), s1.file, h.tau]
    exact e2
  have n2 : o2.n = d.n := by rw [s2.n, s1.n, h.n]
  have hsm : ∀ c ∈ stealCols M, c ∉ mallocCols M T.isSome := by
    cases M <;> cases T.isSome <;> decide
  have a2 : ∀ c ∈ stealCols M, o2.arr c = some (d.col c) ∧ (d.col c).length = d.n := fun c hc => by
    rw [p2 c (hsm c hc), p1 c hc]
    exact sized_col hdS (hrd c hc)
  have hrhoS : Col.rho ∈ stealCols M := by cases M <;> decide
  have htS : Col.tSet ∈ stealCols M := by cases M <;> decide
  obtain ⟨ev, lv⟩ := sized_col hgS (hgr .rhoDot (by decide))
  have hR : ChordReady o2 g (d.col .rho) (d.col .tSet) :=
    { err := by rw [s2.err, s1.err, h.err]
      inc := by rw [s2.inc, s1.inc, h.inc]
      geo := by rw [s2.file, s1.file, h.geo]
      gerr := hge
      sized := fun c hc => hgS c (hgr c hc)
      hrho := (a2 _ hrhoS).1
      ht := (a2 _ htS).1
      lrho := by rw [(a2 _ hrhoS).2, n2]
      lt := by rw [(a2 _ htS).2, n2]
      hn := by rw [n2]; exact hn }
  have e3 := chord_side L hR s hq ev lv hx
  obtain ⟨o3, ho3⟩ : ∃ o3 : CsvData, o3 = { o2 with
      file := fun k => if k = .geo then some (s.geo g) else o2.file k
      inc := (s.order (g.col .rhoDot)).findIdx fun x => !s.wrong x } := ⟨_, rfl⟩
  rw [← ho3] at e3
  obtain ⟨ga, gb, gn, gerr⟩ := s.geo_arr g
  have hlen : ∀ l : List Dbl, (s.order l).length = l.length := by cases s <;> simp [Side.order]
  have hcol : ∀ c ∈ reverseCols, (s.geo g).arr c = some (s.order (g.col c)) ∧ (s.order (g.col c)).length = g.n ∧
      (s.geo g).col c = s.order (g.col c) := fun c hc => by
    obtain ⟨a, b⟩ := sized_col hgS (hgr c hc)
    have : (s.geo g).arr c = some (s.order (g.col c)) := by rw [ga c hc, a]; rfl
    refine ⟨this, by rw [hlen, b], ?_⟩
    rw [Csv.col, this]; rfl
  have hinc : o3.inc ≤ g.n := by
    rw [ho3]
    show List.findIdx _ _ ≤ _
    have := List.findIdx_le_length (p := fun x => !s.wrong x) (xs := s.order (g.col .rhoDot))
    rw [hlen, lv] at this
    exact this
  have hdec : o3.dec = 0 := by rw [ho3]; show o2.dec = 0; rw [s2.dec, s1.dec, h.dec]
  have hsub : ∀ c ∈ Col.rho :: geoCols, c ∈ reverseCols := by decide
  have hsz : Sized (s.geo g) (.rho :: geoCols) (o3.inc + (g.n - (o3.inc + o3.dec))) := fun c hc => by
    obtain ⟨a, b, -⟩ := hcol c (hsub c hc)
    exact ⟨_, a, by rw [b, hdec]; omega⟩
  have n3 : o3.n = d.n := by rw [ho3]; exact n2
  have a3 : o3.arr = o2.arr := by rw [ho3]
  obtain ⟨o4, e4, s4, p4, q4⟩ := interpAll_ok L hsz geoCols o3 (d.col .rho) (by decide) (fun _ h => h)
    (by rw [a3]; exact (a2 _ hrhoS).1) (by rw [(a2 _ hrhoS).2, n3]) (fun c hc => by
      rw [a3, n3]
      by_cases hcm : c ∈ mallocCols M T.isSome
      · obtain ⟨l, a, b⟩ := q2 c hcm
        exact ⟨l, a, by rw [b, s1.n, h.n]⟩
      · have hcs : c ∈ stealCols M := by
          revert hcm hc; revert c
          cases M <;> cases T.isSome <;> decide
        exact ⟨_, a2 c hcs⟩)
  have e4' : interpGeo L o3 = .ok o4 := by
    have f3 : o3.file .geo = some (s.geo g) := by rw [ho3]; simp
    have er3 : o3.err = none := by rw [ho3]; exact hR.err
    unfold interpGeo
    rw [if_neg (by simp [er3]), f3]
    simp only [gerr, hge, Option.isSome_none, Bool.false_eq_true, if_false, gn]
    rw [if_neg (by omega)]
    exact e4
  refine ⟨o4, ?_, ?_, ?_, ?_, ?_, ?_, ?_, ?_, ?_⟩
  · rw [e1, Res.ok_bind, e2', Res.ok_bind, e3, Res.ok_bind, e4']
  · rw [s4.err, ho3]; exact hR.err
  · rw [s4.n, n3]
  · rw [s4.dep, ho3]; show o2.dep = _; rw [s2.dep, s1.dep]
  · intro k hk
    rw [s4.file, ho3]
    show (if k = .geo then some (s.geo g) else o2.file k) = _
    rw [if_neg hk, s2.file, s1.file]
  · intro c hc hcg
    rw [p4 c hcg, a3]
    exact a2 c hc
  · intro c hc
    rw [q4 c hc]
    have i3 : o3.inc = (s.order (g.col .rhoDot)).findIdx fun x => !s.wrong x := by rw [ho3]
    rw [retained_eq s (by rw [lv, (sized_col hgS (hgr .rho (by decide))).2]),
      retained_eq s (by rw [lv, (sized_col hgS (hgr c (hsub c (by simp [hc])))).2]), ← i3,
      (hcol .rho (by decide)).2.2, (hcol c (hsub c (by simp [hc]))).2.2]
  · intro c hc hcg
    rw [p4 c hcg, a3]
    obtain ⟨l, a, b⟩ := q2 c hc
    exact ⟨l, a, by rw [b, s1.n, h.n]⟩
  · intro hM
    have hg : Col.pNorm ∉ geoCols := by decide
    have hmm : Col.pNorm ∉ mallocCols M T.isSome := by cases M <;> cases T.isSome <;> decide
    rw [p4 _ hg, a3, p2 _ hmm, q1 hM]

/-- The step of reading a file, when the options have been fixed. -/
theorem step_good {L : DataLib} {M : Mission} {k k' : Kind} {fp : Option (List Char)} {dep radians : Bool} {x : Csv}
    (hx : csvExtract (L.csv k) k' dep radians fp = .ok x) (he : x.err = none) (hn : x.n ≠ 0) (hobj : L.obj k = true)
    {o : CsvData} (hf : format M k = k') (hd : o.dep = dep) (hr : o.radians = radians) (h : o.err = none) :
    extractFile L M k fp o = .ok { o with
      file := fun k' => if k' = k then some x else o.file k'
      n := if k = .dlp then x.n else o.n } := by
  subst hf hd hr
  exact extractFile_good L M k fp h hobj hx he hn

/-- The optional optical depth file: the step of reading it. -/
theorem extract_tau_ok (L : DataLib) (M : Mission) (I : Inputs) (hobj : ∀ k, L.obj k = true) {T : Option Csv} {o : CsvData}
    (hT : TauRead L M o.dep o.radians I.tau T) (he : o.err = none) (hto : o.file .tau = none) :
    ifTau I (extractFile L M .tau) o = .ok { o with file := fun k => if k = .tau then T else o.file k } := by
  unfold ifTau
  cases hI : I.tau with
  | none =>
    rw [hI] at hT
    cases T with
    | some t => exact hT.elim
    | none =>
      simp only []
      have hf : (fun k => if k = Kind.tau then none else o.file k) = o.file := by
        funext k
        split
        · subst_vars; exact hto.symm
        · rfl
      rw [hf]
  | some fp =>
    rw [hI] at hT
    cases T with
    | none => exact hT.elim
    | some t =>
      have hM : format M .tau = .tau := by cases M <;> rfl
      have hx := hT.1
      simp only [readOf] at hx
      have hn := (csvExtract_sized (by rw [hM]; decide) hx hT.2).1
      simp only []
      rw [extractFile_good L M .tau fp he (hobj _) hx hT.2 hn]
      simp

/-- **C47, C48** (Cassini) If the memory suffices, the files are read without error (`g`, `k`, `d`, and
`T` for the optional optical depth file), the profile shows one kind `s` of occultation, and the
geometry has a row with a radial velocity that has not the wrong sign, then the function returns an object
without error and with as many elements as the profile, in which
* the geometry columns are interpolated in radius over the retained rows only, at the radii of the profile;
* f_sky is the interpolation in observed event time of the predicted minus the residual frequency of
  the same calibration rows, at the times of the profile;
* the columns of the profile are unchanged, the power of the deprecated format is computed row by row
  from the optical depth and the opening angle of the same row;
* the optional columns are interpolated in radius. -/
theorem C47_cassini (L : DataLib) (hI : ∀ xs ys ns, (L.interp xs ys ns).length = ns.length) (I : Inputs) (dep : Bool)
    (hself : L.self = true) (hobj : ∀ k, L.obj k = true) (hm : ∀ c, L.mem c = true) {g k d : Csv} {T : Option Csv}
    (hg : readOf L .cassini dep true (.geo, I.geo) = .ok g) (hge : g.err = none)
    (hk : readOf L .cassini dep true (.cal, I.cal) = .ok k) (hke : k.err = none)
    (hd : readOf L .cassini dep true (.dlp, I.dlp) = .ok d) (hde : d.err = none)
    (hT : TauRead L .cassini dep true I.tau T)
    (s : Side) (hq : s.shows (quotients L.div L.sub (d.col .rho) (d.col .tSet)))
    (hx : ∃ x ∈ g.col .rhoDot, s.wrong x = false) :
    ∃ o, extract L .cassini I dep = .ok (some o) ∧ o.err = none ∧ o.n = d.n ∧
      (∀ c ∈ [Col.D, .rhoDot, .rx, .ry, .rz], o.arr c = some (L.interp
        (s.retained (g.col .rhoDot) (g.col .rho)) (s.retained (g.col .rhoDot) (g.col c)) (d.col .rho))) ∧
      o.arr .fSky = some (L.interp (k.col .tOet)
        (List.zipWith L.sub (k.col .fSkyPred) (k.col .fSkyResid)) (d.col .tOet)) ∧
      (∀ c ∈ [Col.rho, .rawTau, .tRet, .tSet, .tOet, .rhoPole, .rhoTiming, .rawTauThr, .phase, .phi, .B, .phiRl],
        o.arr c = some (d.col c)) ∧
      o.arr .pNorm = some (if dep then List.zipWith (fun tau B =>
          L.pow.exp (L.pow.div (L.pow.neg tau) (L.pow.sind (L.pow.abs B)))) (d.col .rawTau) (d.col .B)
        else d.col .pNorm) ∧
      ∀ t, T = some t → TauColumns L dep d t o := by
  simp only [readOf, format] at hg hk hd
  obtain ⟨hgn, hgS⟩ := csvExtract_sized (by decide) hg hge
  obtain ⟨hkn, hkS⟩ := csvExtract_sized (by decide) hk hke
  obtain ⟨hdn, hdS⟩ := csvExtract_sized (by decide) hd hde
  obtain ⟨o1, ho1⟩ : ∃ o1 : CsvData, o1 = { (init) with
      dep := dep
      n := d.n
      file := fun k' => if k' = .tau then T else if k' = .dlp then some d else if k' = .cal then some k
        else if k' = .geo then some g else none } := ⟨_, rfl⟩
  have e1 : extractAll L .cassini I { init with dep := dep } = .ok o1 := by
    unfold extractAll
    rw [extractFile_good L .cassini .geo I.geo (o := { init with dep := dep }) rfl (hobj _) hg hge hgn, Res.ok_bind]
    simp only []
    rw [step_good hk hke hkn (hobj _) (by rfl) (by rfl) (by rfl) (by rfl), Res.ok_bind,
      step_good hd hde hdn (hobj _) (by rfl) (by rfl) (by rfl) (by rfl), Res.ok_bind,
      extract_tau_ok L .cassini I hobj (T := T) (by exact hT) (by rfl) (by rfl), ho1]
    rfl
  have hL : Loaded .cassini o1 g d T := by
    rw [ho1]; exact ⟨rfl, rfl, rfl, rfl, rfl, rfl, rfl⟩
  have hdep1 : o1.dep = dep := by rw [ho1]
  have hcal1 : o1.file .cal = some k := by rw [ho1]; rfl
  rw [← hdep1] at hgS hdS
  obtain ⟨o2, e2, er2, n2, dep2, file2, st2, geo2, mal2, pn2⟩ :=
    combine_geo L .cassini hm hL hge hde hdn hgS hdS s hq hx
  -- calibration
  obtain ⟨ck1, lk1⟩ := sized_col hkS (c := .tOet) (by cases dep <;> decide)
  obtain ⟨ck2, lk2⟩ := sized_col hkS (c := .fSkyPred) (by cases dep <;> decide)
  obtain ⟨ck3, lk3⟩ := sized_col hkS (c := .fSkyResid) (by cases dep <;> decide)
  obtain ⟨out, eo, lo⟩ := mal2 .fSky (by cases T <;> simp [mallocCols]) (by decide)
  obtain ⟨o3, ho3⟩ : ∃ o3 : CsvData, o3 = put o2 .fSky (some (L.interp (k.col .tOet)
      (List.zipWith L.sub (k.col .fSkyPred) (k.col .fSkyResid)) (d.col .tOet))) := ⟨_, rfl⟩
  have e3 : interpCal L o2 = .ok o3 := by
    unfold interpCal
    rw [if_neg (by simp [er2]), file2 .cal (by decide), hcal1]
    simp only [hke, Option.isSome_none, Bool.false_eq_true, if_false]
    rw [ck2, ck3, fill_zip L.sub lk2 lk3, Res.ok_bind, ck1, (st2 .tOet (by decide) (by decide)).1, eo,
      interpCall_ok L (by omega) (by simp [lk2, lk3]) (by rw [(st2 .tOet (by decide) (by decide)).2, n2])
        (by rw [lo, n2]), Res.ok_bind, ho3]
    rfl
  have a3 : ∀ c, c ≠ .fSky → o3.arr c = o2.arr c := fun c hc => by rw [ho3]; simp [put, hc]
  have f3 : o3.arr .fSky = some (L.interp (k.col .tOet)
      (List.zipWith L.sub (k.col .fSkyPred) (k.col .fSkyResid)) (d.col .tOet)) := by rw [ho3]; simp [put]
  have s3 : o3.err = none ∧ o3.n = d.n ∧ o3.dep = dep ∧ o3.file = o2.file := by
    rw [ho3]; exact ⟨er2, n2, by rw [← hdep1]; exact dep2, rfl⟩
  -- optional columns
  obtain ⟨o4, e4, s4, a4, t4⟩ : ∃ o4, ifTau I (fun _ => interpTau L) o3 = .ok o4 ∧ SameData o3 o4 ∧
      (∀ c, c ∉ [Col.tauPhase, .tauPower, .tau] → o4.arr c = o3.arr c) ∧
      ∀ t, T = some t → TauColumns L dep d t o4 := by
    unfold ifTau
    cases hIt : I.tau with
    | none =>
      rw [hIt] at hT
      cases T with
      | some t => exact hT.elim
      | none => exact ⟨o3, rfl, ⟨rfl, rfl, rfl, rfl, rfl, rfl⟩, fun _ _ => rfl, nofun⟩
    | some fp =>
      rw [hIt] at hT
      cases T with
      | none => exact hT.elim
      | some t =>
        have htx := hT.1
        simp only [readOf, format] at htx
        obtain ⟨htn, htS⟩ := csvExtract_sized (by decide) htx hT.2
        obtain ⟨o4, e4, s4, a4, t4⟩ := interpTau_ok L hI (o := o3) (d := d) (t := t) s3.1
          (by rw [s3.2.2.2, file2 _ (by decide)]; exact hL.tau) hT.2 (by rw [s3.2.2.1]; exact htS)
          (by rw [a3 _ (by decide)]; exact (st2 .rho (by decide) (by decide)).1)
          (by rw [(st2 .rho (by decide) (by decide)).2, s3.2.1])
          (by rw [a3 _ (by decide)]; exact (st2 .B (by decide) (by decide)).1)
          (by rw [(st2 .B (by decide) (by decide)).2, s3.2.1])
          (fun c hc => by
            have h2 : c ∉ geoCols := by revert hc; revert c; decide
            have h3 : c ∈ mallocCols .cassini true := by clear h2; revert hc; revert c; decide
            have h1 : c ≠ .fSky := by clear h2 h3; revert hc; revert c; decide
            rw [a3 c h1, s3.2.1]
            exact mal2 c h3 h2)
        refine ⟨o4, e4, s4, a4, fun t' ht' => ?_⟩
        cases ht'
        rw [s3.2.2.1] at t4
        exact t4
  have e5 : combine L .cassini I o1 = .ok o4 := by
    unfold combine
    simp only [Res.bind_eq_ok] at e2
    obtain ⟨x1, y1, x2, y2, x3, y3, y4⟩ := e2
    rw [y1, Res.ok_bind, y2, Res.ok_bind, y3, Res.ok_bind, y4, Res.ok_bind]
    simp only []
    rw [e3, Res.ok_bind, e4]
  have e6 : finish .cassini o4 = .ok { o4 with file := fun _ => none, stolen := false } := by
    unfold finish
    split
    · rename_i hc _; cases hc
    · rfl
  refine ⟨{ o4 with file := fun _ => none, stolen := false }, ?_, ?_, ?_, ?_, ?_, ?_, ?_, ?_⟩
  · unfold extract
    rw [hself]
    simp only [Bool.not_true, Bool.false_eq_true, if_false]
    rw [e1, Res.ok_bind, e5, Res.ok_bind, e6, Res.ok_bind]
  · show o4.err = none; rw [s4.err, s3.1]
  · show o4.n = _; rw [s4.n, s3.2.1]
  · intro c hc
    show o4.arr c = _
    rw [a4 c (by revert hc; revert c; decide), a3 c (by revert hc; revert c; decide)]
    exact geo2 c hc
  · show o4.arr .fSky = _
    rw [a4 _ (by decide), f3]
  · intro c hc
    show o4.arr c = _
    rw [a4 c (by revert hc; revert c; decide), a3 c (by revert hc; revert c; decide)]
    exact (st2 c hc (by revert hc; revert c; decide)).1
  · show o4.arr .pNorm = _
    rw [a4 _ (by decide), a3 _ (by decide), pn2 rfl, hdep1]
    rfl
  · intro t ht
    obtain ⟨x, y, z⟩ := t4 t ht
    exact ⟨x, y, z⟩

theorem stepInterp_length (xs ys ns : List Dbl) : (stepInterp xs ys ns).length = ns.length := by
  simp [stepInterp]

/-- Two rows of the geometry are left out; the distances are those of the rows that remain. -/
example : ∃ o, extract demoData .cassini egressFiles false = .ok (some o) ∧ o.n = 3 ∧
    o.arr .D = some [.fin 30, .fin 40, .fin 40] ∧ o.arr .fSky = some [.fin 890, .fin 780, .fin 670] := by
  obtain ⟨g, hg, hg'⟩ := Res.of_test (x := readOf demoData .cassini false true (.geo, egressFiles.geo))
    (p := fun g => decide (g.err = none ∧ g.col .rhoDot = [.fin (-1), .fin 0, .fin 2, .fin 3, .fin 3] ∧
      g.col .rho = [.fin 105, .fin 102, .fin 101, .fin 120, .fin 140] ∧
      g.col .D = [.fin 7, .fin 8, .fin 30, .fin 40, .fin 50])) (by decide +kernel)
  obtain ⟨k, hk, hk'⟩ := Res.of_test (x := readOf demoData .cassini false true (.cal, egressFiles.cal))
    (p := fun k => decide (k.err = none ∧ k.col .tOet = [.fin 1, .fin 2, .fin 3] ∧
      k.col .fSkyPred = [.fin 900, .fin 800, .fin 700] ∧
      k.col .fSkyResid = [.fin 10, .fin 20, .fin 30])) (by decide +kernel)
  obtain ⟨d, hd, hd'⟩ := Res.of_test (x := readOf demoData .cassini false true (.dlp, egressFiles.dlp))
    (p := fun d => decide (d.err = none ∧ d.n = 3 ∧ d.col .tOet = [.fin 1, .fin 2, .fin 3] ∧
      d.col .tSet = [.fin 1, .fin 2, .fin 3] ∧ d.col .rho = [.fin 110, .fin 120, .fin 130])) (by decide +kernel)
  rw [decide_eq_true_eq] at hg' hk' hd'
  obtain ⟨ge, g1, g2, g3⟩ := hg'
  obtain ⟨ke, k1, k2, k3⟩ := hk'
  obtain ⟨de, dn, d1, d2, d3⟩ := hd'
  obtain ⟨o, e, -, hn, hgeo, hcal, -⟩ := C47_cassini demoData stepInterp_length egressFiles false rfl (fun _ => rfl)
    (fun _ => rfl) hg ge hk ke hd de (T := none) trivial .egress
    (by rw [d2, d3]; unfold Side.shows; decide +kernel) (by rw [g1]; decide +kernel)
  refine ⟨o, e, hn.trans dn, (hgeo .D (by decide)).trans ?_, hcal.trans ?_⟩
  · rw [g1, g2, g3, d3]; decide +kernel
  · rw [k1, k2, k3, d1]; decide +kernel

/-- **C47** (Uranus) The same for the other function: there is no calibration, f_sky is a column of the profile. -/
theorem C47_uranus (L : DataLib) (hI : ∀ xs ys ns, (L.interp xs ys ns).length = ns.length) (I : Inputs) (radians : Bool)
    (hself : L.self = true) (hobj : ∀ k, L.obj k = true) (hm : ∀ c, L.mem c = true) {g d : Csv} {T : Option Csv}
    (hg : readOf L .uranus false radians (.geo, I.geo) = .ok g) (hge : g.err = none)
    (hd : readOf L .uranus false radians (.dlp, I.dlp) = .ok d) (hde : d.err = none)
    (hT : TauRead L .uranus false radians I.tau T)
    (s : Side) (hq : s.shows (quotients L.div L.sub (d.col .rho) (d.col .tSet)))
    (hx : ∃ x ∈ g.col .rhoDot, s.wrong x = false) :
    ∃ o, extract L .uranus I radians = .ok (some o) ∧ o.err = none ∧ o.n = d.n ∧
      (∀ c ∈ [Col.D, .rhoDot, .rx, .ry, .rz], o.arr c = some (L.interp
        (s.retained (g.col .rhoDot) (g.col .rho)) (s.retained (g.col .rhoDot) (g.col c)) (d.col .rho))) ∧
      (∀ c ∈ [Col.rho, .rawTau, .tRet, .tSet, .tOet, .rhoPole, .rhoTiming, .rawTauThr, .phase, .phi, .B, .phiRl,
        .pNorm, .fSky], o.arr c = some (d.col c)) ∧
      ∀ t, T = some t → TauColumns L false d t o := by
  simp only [readOf, format] at hg hd
  obtain ⟨hgn, hgS⟩ := csvExtract_sized (by decide) hg hge
  obtain ⟨hdn, hdS⟩ := csvExtract_sized (by decide) hd hde
  obtain ⟨o1, ho1⟩ : ∃ o1 : CsvData, o1 = { (init) with
      radians := radians
      n := d.n
      file := fun k' => if k' = .tau then T else if k' = .dlp then some d
        else if k' = .geo then some g else none } := ⟨_, rfl⟩
  have e1 : extractAll L .uranus I { init with radians := radians } = .ok o1 := by
    unfold extractAll
    rw [extractFile_good L .uranus .geo I.geo (o := { init with radians := radians }) rfl (hobj _) hg hge hgn, Res.ok_bind]
    simp only [Res.ok_bind]
    rw [step_good hd hde hdn (hobj _) (by rfl) (by rfl) (by rfl) (by rfl), Res.ok_bind,
      extract_tau_ok L .uranus I hobj (T := T) (by exact hT) (by rfl) (by rfl), ho1]
    rfl
  have hL : Loaded .uranus o1 g d T := by
    rw [ho1]; exact ⟨rfl, rfl, rfl, rfl, rfl, rfl, rfl⟩
  have hdep1 : o1.dep = false := by rw [ho1]; rfl
  rw [← hdep1] at hgS hdS
  obtain ⟨o2, e2, er2, n2, dep2, file2, st2, geo2, mal2, -⟩ :=
    combine_geo L .uranus hm hL hge hde hdn hgS hdS s hq hx
  obtain ⟨o4, e4, s4, a4, t4⟩ : ∃ o4, ifTau I (fun _ => interpTau L) o2 = .ok o4 ∧ SameData o2 o4 ∧
      (∀ c, c ∉ [Col.tauPhase, .tauPower, .tau] → o4.arr c = o2.arr c) ∧
      ∀ t, T = some t → TauColumns L false d t o4 := by
    unfold ifTau
    cases hIt : I.tau with
    | none =>
      rw [hIt] at hT
      cases T with
      | some t => exact hT.elim
      | none => exact ⟨o2, rfl, ⟨rfl, rfl, rfl, rfl, rfl, rfl⟩, fun _ _ => rfl, nofun⟩
    | some fp =>
      rw [hIt] at hT
      cases T with
      | none => exact hT.elim
      | some t =>
        have htx := hT.1
        simp only [readOf, format] at htx
        obtain ⟨htn, htS⟩ := csvExtract_sized (by decide) htx hT.2
        obtain ⟨o4, e4, s4, a4, t4⟩ := interpTau_ok L hI (o := o2) (d := d) (t := t) er2
          (by rw [file2 _ (by decide)]; exact hL.tau) hT.2 (by rw [dep2, hdep1]; exact htS)
          (st2 .rho (by decide) (by decide)).1
          (by rw [(st2 .rho (by decide) (by decide)).2, n2])
          (st2 .B (by decide) (by decide)).1
          (by rw [(st2 .B (by decide) (by decide)).2, n2])
          (fun c hc => by
            have h2 : c ∉ geoCols := by revert hc; revert c; decide
            have h3 : c ∈ mallocCols .uranus true := by clear h2; revert hc; revert c; decide
            rw [n2]
            exact mal2 c h3 h2)
        refine ⟨o4, e4, s4, a4, fun t' ht' => ?_⟩
        cases ht'
        rw [dep2, hdep1] at t4
        exact t4
  have e5 : combine L .uranus I o1 = .ok o4 := by
    unfold combine
    simp only [Res.bind_eq_ok] at e2
    obtain ⟨x1, y1, x2, y2, x3, y3, y4⟩ := e2
    rw [y1, Res.ok_bind, y2, Res.ok_bind, y3, Res.ok_bind, y4, Res.ok_bind]
    simp only [Res.ok_bind]
    exact e4
  have e6 : finish .uranus o4 = .ok { o4 with file := fun _ => none, stolen := false } := by
    have : o4.file .dlp = some d := by rw [s4.file, file2 _ (by decide)]; exact hL.dlp
    unfold finish
    rw [this]
  refine ⟨{ o4 with file := fun _ => none, stolen := false }, ?_, ?_, ?_, ?_, ?_, ?_⟩
  · unfold extract
    rw [hself]
    simp only [Bool.not_true, Bool.false_eq_true, if_false]
    rw [e1, Res.ok_bind, e5, Res.ok_bind, e6, Res.ok_bind]
  · show o4.err = none; rw [s4.err, er2]
  · show o4.n = _; rw [s4.n, n2]
  · intro c hc
    show o4.arr c = _
    rw [a4 c (by revert hc; revert c; decide)]
    exact geo2 c hc
  · intro c hc
    show o4.arr c = _
    rw [a4 c (by revert hc; revert c; decide)]
    exact (st2 c (by revert hc; revert c; decide) (by revert hc; revert c; decide)).1
  · intro t ht
    obtain ⟨x, y, z⟩ := t4 t ht
    exact ⟨x, y, z⟩

/-- The files of a Uranus occultation: an ingress occultation, the last row of the geometry is left out. -/
def ingressFiles : Inputs where
  geo := some (fileFrom .geo false [geoRow "140" "-1" "7", geoRow "120" "-1" "8", geoRow "101" "0" "30"])
  cal := none
  dlp := some (fileFrom .uranus false [dlpRow "130" "1", dlpRow "120" "2"])
  tau := none

example : ∃ o, extract demoData .uranus ingressFiles true = .ok (some o) ∧ o.n = 2 ∧
    o.arr .D = some [.fin 8, .fin 8] := by
  obtain ⟨g, hg, hg'⟩ := Res.of_test (x := readOf demoData .uranus false true (.geo, ingressFiles.geo))
    (p := fun g => decide (g.err = none ∧ g.col .rhoDot = [.fin (-1), .fin (-1), .fin 0] ∧
      g.col .rho = [.fin 140, .fin 120, .fin 101] ∧ g.col .D = [.fin 7, .fin 8, .fin 30])) (by decide +kernel)
  obtain ⟨d, hd, hd'⟩ := Res.of_test (x := readOf demoData .uranus false true (.dlp, ingressFiles.dlp))
    (p := fun d => decide (d.err = none ∧ d.n = 2 ∧
      d.col .tSet = [.fin 1, .fin 2] ∧ d.col .rho = [.fin 130, .fin 120])) (by decide +kernel)
  rw [decide_eq_true_eq] at hg' hd'
  obtain ⟨ge, g1, g2, g3⟩ := hg'
  obtain ⟨de, dn, d2, d3⟩ := hd'
  obtain ⟨o, e, -, hn, hgeo, -⟩ := C47_uranus demoData stepInterp_length ingressFiles true rfl (fun _ => rfl)
    (fun _ => rfl) hg ge hd de (T := none) trivial .ingress
    (by rw [d2, d3]; unfold Side.shows; decide +kernel) (by rw [g1]; decide +kernel)
  refine ⟨o, e, hn.trans dn, (hgeo .D (by decide)).trans ?_⟩
  rw [g1, g2, g3, d3]; decide +kernel

/-- **C47** The lengths: every interpolated column has one entry per row of the profile. -/
theorem C47_lengths (L : DataLib) (hI : ∀ xs ys ns, (L.interp xs ys ns).length = ns.length) {V : CsvLib} {k : Kind}
    (hk : k = .dlp ∨ k = .uranus) {dep radians : Bool} {fp : Option (List Char)} {d : Csv}
    (hd : csvExtract V k dep radians fp = .ok d) (hde : d.err = none) (xs ys : List Dbl) :
    (L.interp xs ys (d.col .rho)).length = d.n ∧ (L.interp xs ys (d.col .tOet)).length = d.n := by
  have hkm : k ≠ .merged := by rcases hk with rfl | rfl <;> decide
  obtain ⟨-, hS⟩ := csvExtract_sized hkm hd hde
  have hc : ∀ c ∈ [Col.rho, .tOet], c ∈ readOrder k dep := by
    rcases hk with rfl | rfl <;> cases dep <;> decide
  rw [hI, hI]
  exact ⟨(sized_col hS (hc .rho (by decide))).2, (sized_col hS (hc .tOet (by decide))).2⟩

/-! ### C48 over the real numbers -/

/-- The operations over the real numbers, angles in degrees. -/
noncomputable def realPow : PowOps ℝ where
  abs x := |x|
  sind x := Real.sin (x * Real.pi / 180)
  exp := Real.exp
  neg x := -x
  div a b := a / b

/-- **C48** For opening angles B (degrees) with 0 < |B| < 180 (which includes all that are meaningful, |B| ≤ 90): the
power is exp(-tau/|sin B|), positive, at most 1 for tau ≥ 0, and the optical depth is
-|sin B| times its logarithm. -/
theorem C48_power (tau B : ℝ) (h0 : B ≠ 0) (h1 : |B| < 180) :
    powerOf realPow tau B = Real.exp (-tau / |Real.sin (B * Real.pi / 180)|) ∧ 0 < powerOf realPow tau B ∧
    (0 ≤ tau → powerOf realPow tau B ≤ 1) ∧
    tau = -|Real.sin (B * Real.pi / 180)| * Real.log (powerOf realPow tau B) := by
  have hB : 0 < |B| := abs_pos.2 h0
  have hs : 0 < Real.sin (|B| * Real.pi / 180) := by
    apply Real.sin_pos_of_pos_of_lt_pi
    · have := Real.pi_pos
      positivity
    · rw [div_lt_iff₀ (by norm_num), mul_comm]
      exact mul_lt_mul_of_pos_left h1 Real.pi_pos
  have he : Real.sin (|B| * Real.pi / 180) = |Real.sin (B * Real.pi / 180)| := by
    rcases le_or_gt 0 B with h | h
    · rw [abs_of_nonneg h] at hs ⊢
      rw [abs_of_pos hs]
    · rw [abs_of_neg h] at hs ⊢
      rw [show -B * Real.pi / 180 = -(B * Real.pi / 180) by ring, Real.sin_neg] at hs ⊢
      rw [abs_of_neg (by linarith)]
  have hp : powerOf realPow tau B = Real.exp (-tau / |Real.sin (B * Real.pi / 180)|) := by
    unfold powerOf realPow
    simp only []
    rw [he]
  rw [he] at hs
  refine ⟨hp, ?_, fun ht => ?_, ?_⟩
  · rw [hp]; exact Real.exp_pos _
  · rw [hp, Real.exp_le_one_iff]
    exact div_nonpos_of_nonpos_of_nonneg (by linarith) hs.le
  · rw [hp, Real.log_exp]
    field_simp

example : powerOf realPow 1 30 = Real.exp (-2) := by
  have h := (C48_power 1 30 (by norm_num) (by norm_num)).1
  rw [h, show (30 : ℝ) * Real.pi / 180 = Real.pi / 6 by ring, Real.sin_pi_div_six]
  norm_num

/-- Outside this range the computed quantity is not exp(-tau/|sin B|): for B = 270 it is exp(tau). -/
theorem C48_range (tau : ℝ) : powerOf realPow tau 270 = Real.exp tau := by
  unfold powerOf realPow
  simp only []
  rw [abs_of_pos (by norm_num), show (270 : ℝ) * Real.pi / 180 = Real.pi / 2 + Real.pi by ring, Real.sin_add_pi,
    Real.sin_pi_div_two]
  simp

end Verif
