import Verif.Proofs.CsvData
import Verif.Props.C44
import Verif.Base.Exact
import Mathlib.Algebra.Order.Field.Basic

/-!
# C45, C46: chord occultations and the part of the geometry that is left out
-/
namespace Verif
open Spec Data

/-- The geometry object after the ordering of its rows. -/
def Spec.Side.geo : Side → Csv → Csv
  | .egress, g => g
  | .ingress, g => reversed g

theorem Spec.Side.geo_arr (s : Side) (g : Csv) : (∀ c, c ∈ reverseCols → (s.geo g).arr c = (g.arr c).map s.order) ∧
    (∀ c, c ∉ reverseCols → (s.geo g).arr c = g.arr c) ∧ (s.geo g).n = g.n ∧ (s.geo g).err = g.err := by
  cases s
  · refine ⟨fun c hc => ?_, fun c hc => ?_, rfl, rfl⟩
    · show (reversed g).arr c = _
      simp only [reversed, hc, if_true]
      rfl
    · show (reversed g).arr c = _
      simp only [reversed, hc, if_false]
  · refine ⟨fun c hc => ?_, fun c hc => rfl, rfl, rfl⟩
    show g.arr c = _
    cases g.arr c <;> rfl

/-- The object before the check: no error, a usable geometry, radii and times of the right length. -/
structure ChordReady (o : CsvData) (g : Csv) (rho t : List Dbl) : Prop where
  err : o.err = none
  inc : o.inc = 0
  geo : o.file .geo = some g
  gerr : g.err = none
  sized : Sized g reverseCols g.n
  hrho : o.arr .rho = some rho
  ht : o.arr .tSet = some t
  lrho : rho.length = o.n
  lt : t.length = o.n
  hn : o.n ≠ 0

theorem skipGeo_eq {bad : Dbl → Bool} {o : CsvData} {g : Csv} {v : List Dbl} (hg : o.file .geo = some g)
    (hinc : o.inc = 0) (hv : g.arr .rhoDot = some v) (hl : v.length = g.n) :
    ((∃ x ∈ v, bad x = false) → skipGeo bad o = .ok { o with inc := v.findIdx fun x => !bad x }) ∧
    ((∀ x ∈ v, bad x = true) → skipGeo bad o = .ub .oobRead) := by
  unfold skipGeo
  rw [hg, hinc]
  simp only [hv]
  refine ⟨fun h => ?_, fun h => ?_⟩
  · rw [skip_ok bad g.n _ 0 v hl (by omega) (by omega) (by simpa using h), Res.ok_bind]
    simp
  · rw [skip_ub bad g.n _ 0 v hl (by omega) (by omega) (by simpa using h), Res.ub_bind]

theorem chord_cases (L : DataLib) {o : CsvData} {g : Csv} {rho t : List Dbl} (h : ChordReady o g rho t) :
    (Side.ingress.shows (quotients L.div L.sub rho t) →
      checkChord L o = reverseGeo o >>= skipGeo (fun x => x.ge (.fin 0))) ∧
    (Side.egress.shows (quotients L.div L.sub rho t) → checkChord L o = skipGeo (fun x => x.le (.fin 0)) o) ∧
    (¬ Side.ingress.shows (quotients L.div L.sub rho t) → ¬ Side.egress.shows (quotients L.div L.sub rho t) →
      checkChord L o = .ok (fail o (if (∃ d ∈ quotients L.div L.sub rho t, d.lt (.fin 0) = true) ∧
        (∃ d ∈ quotients L.div L.sub rho t, Dbl.gt d (.fin 0) = true) then .chord else .stationary))) := by
  have e : slopeLoop L (o.arr .rho) (o.arr .tSet) o.n = .ok ((quotients L.div L.sub rho t).foldl slopeStep
      (.fin (10^36), .fin (-10^36))) := by
    rw [h.hrho, h.ht]; exact slopeLoop_ok L h.hn h.lrho h.lt
  obtain ⟨a, b, c1, c2, c3, c4⟩ := slope_fold (quotients L.div L.sub rho t) (.fin (10^36), .fin (-10^36)) rfl rfl
  unfold checkChord
  rw [h.err, h.geo]
  simp only [Option.isSome_none, Bool.false_eq_true, if_false, h.gerr, e, Res.ok_bind]
  obtain ⟨s, hs⟩ : ∃ s, s = (quotients L.div L.sub rho t).foldl slopeStep (.fin (10^36), .fin (-10^36)) := ⟨_, rfl⟩
  rw [← hs] at a b c1 c2 c3 c4 ⊢
  have n1 : Dbl.lt (.fin (10^36)) (.fin 0) = false := by decide +kernel
  have n2 : Dbl.lt (.fin 0) (.fin (-10^36)) = false := by decide +kernel
  have n3 : Dbl.lt (.fin 0) (.fin (10^36)) = true := by decide +kernel
  have n4 : Dbl.lt (.fin (-10^36)) (.fin 0) = true := by decide +kernel
  simp only [n1, n2, n3, n4, Bool.false_eq_true, false_or, true_and] at c1 c2 c3 c4
  have tri : ∀ x : Dbl, x.isNaN = false → x.lt (.fin 0) = false → Dbl.lt (.fin 0) x = false →
      x.eq (.fin 0) = true := by
    intro x h1 h2 h3
    cases x with
    | nan => cases h1
    | pinf => exact absurd h3 (by decide +kernel)
    | ninf => exact absurd h2 (by decide +kernel)
    | fin q =>
      simp only [Dbl.lt_fin, decide_eq_false_iff_not, not_lt] at h2 h3
      simp only [Dbl.eq_fin, decide_eq_true_eq]
      exact le_antisymm h3 h2
  have neq : ∀ x : Dbl, x.eq (.fin 0) = true → x.lt (.fin 0) = false ∧ Dbl.lt (.fin 0) x = false := by
    intro x hx
    cases x with
    | nan => cases hx
    | pinf => cases hx
    | ninf => cases hx
    | fin q =>
      simp only [Dbl.eq_fin, decide_eq_true_eq] at hx
      subst hx
      exact ⟨by decide +kernel, by decide +kernel⟩
  have asym : ∀ x : Dbl, x.lt (.fin 0) = true → Dbl.lt (.fin 0) x = false := fun x hx => by
    cases hh : Dbl.lt (.fin 0) x
    · rfl
    · have := Dbl.lt_trans hx hh
      rw [Dbl.lt_irrefl] at this; cases this
  refine ⟨fun hq => ?_, fun hq => ?_, fun hi heg => ?_⟩
  · have h2 : s.2.lt (.fin 0) = true := c4.2 hq
    have h2' : s.2.gt (.fin 0) = false := asym _ h2
    have h1 : s.1.eq (.fin 0) = false := by
      by_contra hc
      rw [Bool.not_eq_false] at hc
      obtain ⟨x1, x2⟩ := neq _ hc
      by_cases hall : ∃ d ∈ quotients L.div L.sub rho t, d.isNaN = false
      · obtain ⟨d, hd, hdn⟩ := hall
        rw [c1.2 ⟨d, hd, hq d hd hdn⟩] at x1; cases x1
      · push Not at hall
        rw [c3.2 fun d hd hn => absurd hn (by simpa using hall d hd)] at x2; cases x2
    have h3 : s.2.eq (.fin 0) = false := by
      by_contra hc
      rw [Bool.not_eq_false] at hc
      rw [(neq _ hc).1] at h2; cases h2
    simp only [h2', h1, h3, h2, Bool.and_false, Bool.or_self, Bool.false_eq_true, if_false, if_true]
  · obtain ⟨⟨d, hd, hdn⟩, hq⟩ := hq
    have h1 : Dbl.lt (.fin 0) s.1 = true := c3.2 hq
    have h2 : Dbl.lt (.fin 0) s.2 = true := c2.2 ⟨d, hd, hq d hd hdn⟩
    have h1' : s.1.lt (.fin 0) = false := by
      cases hh : s.1.lt (.fin 0)
      · rfl
      · rw [asym _ hh] at h1; cases h1
    have h2' : s.2.lt (.fin 0) = false := by
      cases hh : s.2.lt (.fin 0)
      · rfl
      · rw [asym _ hh] at h2; cases h2
    have h3 : s.1.eq (.fin 0) = false := by
      by_contra hc
      rw [Bool.not_eq_false] at hc
      rw [(neq _ hc).2] at h1; cases h1
    have h4 : s.2.eq (.fin 0) = false := by
      by_contra hc
      rw [Bool.not_eq_false] at hc
      rw [(neq _ hc).2] at h2; cases h2
    simp only [h1', h2', h3, h4, Bool.false_and, Bool.or_self, Bool.false_eq_true, if_false, Dbl.gt, h1, if_true]
  · have h2 : s.2.lt (.fin 0) = false := by
      by_contra hc
      rw [Bool.not_eq_false] at hc
      exact hi (c4.1 hc)
    have h1 : Dbl.lt (.fin 0) s.1 = false := by
      by_contra hc
      rw [Bool.not_eq_false] at hc
      refine heg ⟨?_, c3.1 hc⟩
      by_contra hn
      push Not at hn
      exact hi fun d hd hdn => absurd hdn (by simpa using hn d hd)
    by_cases hb : s.1.lt (.fin 0) = true ∧ Dbl.lt (.fin 0) s.2 = true
    · rw [if_pos (show (s.1.lt (.fin 0) && s.2.gt (.fin 0)) = true by rw [hb.1]; exact hb.2),
        if_pos ⟨c1.1 hb.1, c2.1 hb.2⟩]
    · rw [if_neg (show ¬ (s.1.lt (.fin 0) && s.2.gt (.fin 0)) = true by
        rw [Bool.and_eq_true]; exact hb), if_pos, if_neg]
      · rintro ⟨x, y⟩
        exact hb ⟨c1.2 x, c2.2 y⟩
      · rw [Bool.or_eq_true]
        by_cases hneg : s.1.lt (.fin 0) = true
        · right
          exact tri _ b h2 (by simpa [hneg] using hb)
        · left
          exact tri _ a (by simpa using hneg) h1

theorem chord_side (L : DataLib) {o : CsvData} {g : Csv} {rho t v : List Dbl} (h : ChordReady o g rho t) (s : Side)
    (hq : s.shows (quotients L.div L.sub rho t)) (hv : g.arr .rhoDot = some v) (hl : v.length = g.n)
    (hx : ∃ x ∈ v, s.wrong x = false) :
    checkChord L o = .ok { o with
      file := fun k => if k = .geo then some (s.geo g) else o.file k
      inc := (s.order v).findIdx fun x => !s.wrong x } := by
  cases s with
  | egress =>
    rw [(chord_cases L h).2.1 hq, (skipGeo_eq (bad := fun x => x.le (.fin 0)) h.geo h.inc hv hl).1 hx]
    congr 2
    funext k
    by_cases hk : k = .geo
    · rw [if_pos hk, hk, h.geo]; rfl
    · rw [if_neg hk]
  | ingress =>
    rw [(chord_cases L h).1 hq]
    have er : reverseGeo o = .ok { o with file := fun k => if k = .geo then some (reversed g) else o.file k } := by
      unfold reverseGeo
      rw [h.err, h.geo]
      simp only [Option.isSome_none, Bool.false_eq_true, if_false, h.gerr]
      rw [reverseAll_ok reverseCols g (by decide) h.sized, Res.ok_bind]
      rfl
    rw [er, Res.ok_bind]
    rw [(skipGeo_eq (bad := fun x => x.ge (.fin 0)) (o := { o with
        file := fun k => if k = .geo then some (reversed g) else o.file k })
      (g := reversed g) (v := v.reverse) (by simp) h.inc
      (by simp [reversed, hv, reverseCols]) (by simpa [reversed] using hl)).1 (by simpa [Side.wrong] using hx)]
    rfl

/-- **C45, C46** (partial) For every DLP profile whose difference quotients d rho / d t show one kind of
occultation (NaN ignored), and every geometry with at least one row whose radial velocity does not
have the wrong sign: no error; the six columns of the geometry are in the order of increasing radius
(reversed for ingress), the other columns and the arrays of the object are unchanged; the rows
before `inc` have the wrong sign, row `inc` has not.
Missing: the remaining geometries, see `C46_false`; NaN velocities, see `C46_nan_false`. -/
theorem C45_side_partial (L : DataLib) {o : CsvData} {g : Csv} {rho t v : List Dbl} (h : ChordReady o g rho t) (s : Side)
    (hq : s.shows (quotients L.div L.sub rho t)) (hv : g.arr .rhoDot = some v)
    (hx : ∃ x ∈ v, s.wrong x = false) :
    ∃ o', checkChord L o = .ok o' ∧ o'.err = none ∧ o'.arr = o.arr ∧ o'.n = o.n ∧ o'.dec = o.dec ∧
      o'.dep = o.dep ∧ (∀ k, k ≠ .geo → o'.file k = o.file k) ∧
      (∃ g', o'.file .geo = some g' ∧ g'.n = g.n ∧ g'.err = none ∧
        (∀ c ∈ [Col.rho, .rhoDot, .D, .rx, .ry, .rz], g'.arr c = (g.arr c).map s.order) ∧
        ∀ c, c ∉ [Col.rho, .rhoDot, .D, .rx, .ry, .rz] → g'.arr c = g.arr c) ∧
      (∀ i x, (s.order v)[i]? = some x → i < o'.inc → s.wrong x = true) ∧
      ∃ x, (s.order v)[o'.inc]? = some x ∧ s.wrong x = false := by
  have hl : v.length = g.n := by
    obtain ⟨l, e, hl⟩ := h.sized .rhoDot (by decide)
    rw [hv] at e; cases e; exact hl
  obtain ⟨ga, gb, gn, ge⟩ := s.geo_arr g
  have hx' : ∃ x ∈ s.order v, s.wrong x = false := by
    cases s
    · simpa [Side.order] using hx
    · exact hx
  have hlt : (s.order v).findIdx (fun x => !s.wrong x) < (s.order v).length := by
    rw [List.findIdx_lt_length]
    obtain ⟨x, a, b⟩ := hx'
    exact ⟨x, a, by simp [b]⟩
  have main := chord_side L h s hq hv hl hx
  refine ⟨_, main, h.err, rfl, rfl, rfl, rfl, fun k hk => by simp [hk], ⟨s.geo g, by simp, gn, ge.trans h.gerr,
    ga, gb⟩, fun i x hi hlt' => ?_, ?_⟩
  · have := List.not_of_lt_findIdx (p := fun x => !s.wrong x) (xs := s.order v) (i := i) hlt'
    obtain ⟨h1, h2⟩ := List.getElem?_eq_some_iff.1 hi
    rw [h2] at this
    simpa using this
  · refine ⟨_, List.getElem?_eq_getElem hlt, ?_⟩
    have := List.findIdx_getElem (p := fun x => !s.wrong x) (xs := s.order v) (w := hlt)
    simpa using this

/-- Three rows of a geometry with the given radial velocities. -/
def chordGeo (v : List Dbl) : Csv :=
  { csvInit with
    arr := fun c => if c = .rhoDot then some v else some [.fin 1, .fin 2, .fin 3]
    n := 3 }

/-- An object before the check. -/
def chordData (rho v : List Dbl) : CsvData :=
  { init with
    file := fun k => if k = .geo then some (chordGeo v) else none
    arr := fun c => if c = .rho then some rho else if c = .tSet then some [.fin 1, .fin 2, .fin 3] else none
    n := 3 }

theorem chordData_ready {rho v : List Dbl} (h1 : rho.length = 3) (h2 : v.length = 3) :
    ChordReady (chordData rho v) (chordGeo v) rho [.fin 1, .fin 2, .fin 3] where
  err := rfl
  inc := rfl
  geo := rfl
  gerr := rfl
  sized c _ := by
    by_cases hc : c = .rhoDot
    · exact ⟨v, by simp [chordGeo, hc], h2⟩
    · exact ⟨[.fin 1, .fin 2, .fin 3], by simp [chordGeo, hc], rfl⟩
  hrho := rfl
  ht := rfl
  lrho := h1
  lt := rfl
  hn := by simp [chordData]

theorem egress_shows : Side.egress.shows (quotients demoData.div demoData.sub [.fin 10, .fin 20, .fin 30]
    [.fin 1, .fin 2, .fin 3]) := by
  unfold Side.shows; decide +kernel

/-- An egress occultation: two rows are left out. -/
example : ∃ o', checkChord demoData (chordData [.fin 10, .fin 20, .fin 30] [.fin (-1), .fin 0, .fin 1]) = .ok o' ∧
    o'.err = none ∧ o'.inc = 2 := by
  obtain ⟨o', e, he, -, -, -, -, -, -, hb, x, hx, hw⟩ := C45_side_partial demoData
    (chordData_ready (rho := [.fin 10, .fin 20, .fin 30]) (v := [.fin (-1), .fin 0, .fin 1]) rfl rfl) .egress
    egress_shows rfl (by decide +kernel)
  refine ⟨o', e, he, ?_⟩
  have h0 : ¬ o'.inc = 0 := fun h => by rw [h] at hx; cases hx; revert hw; decide +kernel
  have h1 : ¬ o'.inc = 1 := fun h => by rw [h] at hx; cases hx; revert hw; decide +kernel
  have h3 := (List.getElem?_eq_some_iff.1 hx).1
  simp only [Side.order, List.length_cons, List.length_nil] at h3
  omega

/-- **C46** A NaN velocity stops the loop: the rows after it are used although their velocities have the wrong
sign. -/
theorem C46_nan_false : ∃ o', checkChord demoData (chordData [.fin 10, .fin 20, .fin 30] [.nan, .fin (-1), .fin 1]) = .ok o' ∧
    o'.err = none ∧ o'.inc = 0 ∧ Side.egress.wrong (.fin (-1)) = true := by
  obtain ⟨o', h, e⟩ := Res.of_test
    (x := checkChord demoData (chordData [.fin 10, .fin 20, .fin 30] [.nan, .fin (-1), .fin 1]))
    (p := fun o => o.err.isNone && o.inc == 0) (by decide +kernel)
  simp only [Bool.and_eq_true, Option.isNone_iff_eq_none, beq_iff_eq] at e
  exact ⟨o', h, e.1, e.2, by decide +kernel⟩

/-- **C45** If the difference quotients show neither kind (NaN ignored), the object gets an error and is otherwise
unchanged; the error is the one for chord occultations exactly if both signs occur. -/
theorem C45_error (L : DataLib) {o : CsvData} {g : Csv} {rho t : List Dbl} (h : ChordReady o g rho t)
    (hi : ¬ Side.ingress.shows (quotients L.div L.sub rho t))
    (he : ¬ Side.egress.shows (quotients L.div L.sub rho t)) :
    ∃ e, checkChord L o = .ok { o with err := some e } ∧ (e = .chord ∨ e = .stationary) ∧
      (e = .chord ↔ (∃ d ∈ quotients L.div L.sub rho t, d.lt (.fin 0) = true) ∧
        (∃ d ∈ quotients L.div L.sub rho t, Dbl.gt d (.fin 0) = true)) := by
  refine ⟨_, (chord_cases L h).2.2 hi he, ?_, ?_⟩
  · split
    · exact .inl rfl
    · exact .inr rfl
  · split
    · rename_i hc
      exact ⟨fun _ => hc, fun _ => rfl⟩
    · rename_i hc
      exact ⟨nofun, fun hh => absurd hh hc⟩

/-- A chord occultation. -/
example : ∃ e, checkChord demoData (chordData [.fin 10, .fin 20, .fin 10] [.fin (-1), .fin 0, .fin 1]) =
    .ok { chordData [.fin 10, .fin 20, .fin 10] [.fin (-1), .fin 0, .fin 1] with err := some e } ∧ e = .chord := by
  obtain ⟨e, h, -, he⟩ := C45_error demoData
    (chordData_ready (rho := [.fin 10, .fin 20, .fin 10]) (v := [.fin (-1), .fin 0, .fin 1]) rfl rfl)
    (by unfold Side.shows; decide +kernel) (by unfold Side.shows; decide +kernel)
  exact ⟨e, h, he.2 (by decide +kernel)⟩

/-- **C46** is false: if all velocities of the geometry have the wrong sign (or are zero), the loop reads
the entry after the last one — for every such geometry and every profile. -/
theorem C46_false (L : DataLib) {o : CsvData} {g : Csv} {rho t v : List Dbl} (h : ChordReady o g rho t) (s : Side)
    (hq : s.shows (quotients L.div L.sub rho t)) (hv : g.arr .rhoDot = some v)
    (hx : ∀ x ∈ v, s.wrong x = true) : checkChord L o = .ub .oobRead := by
  have hl : v.length = g.n := by
    obtain ⟨l, e, hl⟩ := h.sized .rhoDot (by decide)
    rw [hv] at e; cases e; exact hl
  cases s with
  | egress => rw [(chord_cases L h).2.1 hq, (skipGeo_eq (bad := fun x => x.le (.fin 0)) h.geo h.inc hv hl).2 hx]
  | ingress =>
    rw [(chord_cases L h).1 hq]
    have er : reverseGeo o = .ok { o with file := fun k => if k = .geo then some (reversed g) else o.file k } := by
      unfold reverseGeo
      rw [h.err, h.geo]
      simp only [Option.isSome_none, Bool.false_eq_true, if_false, h.gerr]
      rw [reverseAll_ok reverseCols g (by decide) h.sized, Res.ok_bind]
      rfl
    rw [er, Res.ok_bind]
    exact (skipGeo_eq (bad := fun x => x.ge (.fin 0)) (o := { o with
          file := fun k => if k = .geo then some (reversed g) else o.file k }) (g := reversed g) (v := v.reverse) (by simp) h.inc
      (by simp [reversed, hv, reverseCols]) (by simpa [reversed] using hl)).2 (by simpa [Side.wrong] using hx)

example : checkChord demoData (chordData [.fin 10, .fin 20, .fin 30] [.fin (-1), .fin 0, .fin (-1)]) = .ub .oobRead :=
  C46_false demoData (chordData_ready rfl rfl) .egress egress_shows rfl (by decide +kernel)

/-- **C45** is false for profiles without difference quotients (one row): they are taken for an ingress
occultation, whatever the geometry, and the geometry is reversed. -/
theorem C45_single_false (L : DataLib) {o : CsvData} {g : Csv} {rho t : List Dbl} (h : ChordReady o g rho t)
    (hn : o.n = 1) : Side.ingress.shows (quotients L.div L.sub rho t) := by
  have : quotients L.div L.sub rho t = [] := by
    obtain ⟨a, rfl⟩ := List.length_eq_one_iff.1 (h.lrho.trans hn)
    rfl
  rw [this]
  exact nofun

/-! ### Exact arithmetic: monotone radii -/

/-- **C45** In exact arithmetic, with strictly increasing times, strictly increasing radii show egress and
strictly decreasing radii show ingress. -/
theorem C45_monotone (rho t : List ℚ) (hl : rho.length = t.length) (hn : 2 ≤ rho.length)
    (ht : t.Pairwise (· < ·)) :
    (rho.Pairwise (· < ·) →
      Side.egress.shows (quotients exactNum.div exactNum.sub (rho.map .fin) (t.map .fin))) ∧
    (rho.Pairwise (· > ·) →
      Side.ingress.shows (quotients exactNum.div exactNum.sub (rho.map .fin) (t.map .fin))) := by
  have quot : ∀ a b c d : ℚ, c < d → exactNum.div (exactNum.sub (.fin b) (.fin a)) (exactNum.sub (.fin d) (.fin c)) =
      Dbl.fin ((b - a) / (d - c)) := by
    intro a b c d h
    have h0 : d - c ≠ 0 := sub_ne_zero.2 (ne_of_gt h)
    show Dbl.divE (.fin (b - a)) (.fin (d - c)) = _
    simp [Dbl.divE, h0]
  have up : ∀ (rho t : List ℚ), t.Pairwise (· < ·) → rho.Pairwise (· < ·) →
      ∀ d ∈ quotients exactNum.div exactNum.sub (rho.map .fin) (t.map .fin), Dbl.gt d (.fin 0) = true ∧ d.isNaN = false := by
    intro rho
    induction rho with
    | nil => intro t _ _ d hd; simp [quotients] at hd
    | cons r0 rho ih =>
      intro t ht hr d hd
      cases rho with
      | nil => cases t <;> simp [quotients] at hd
      | cons r1 rho =>
        cases t with
        | nil => simp [quotients] at hd
        | cons t0 t =>
          cases t with
          | nil => simp [quotients] at hd
          | cons t1 t =>
            have h1 : r0 < r1 := (List.pairwise_cons.1 hr).1 _ (by simp)
            have h2 : t0 < t1 := (List.pairwise_cons.1 ht).1 _ (by simp)
            simp only [List.map_cons, quotients, List.mem_cons] at hd
            rcases hd with rfl | hd
            · rw [quot _ _ _ _ h2]
              refine ⟨?_, rfl⟩
              simp only [Dbl.gt, Dbl.lt_fin, decide_eq_true_eq]
              exact div_pos (by linarith) (by linarith)
            · exact ih (t1 :: t) (List.pairwise_cons.1 ht).2 (List.pairwise_cons.1 hr).2 d
                (by simpa [List.map_cons] using hd)
  have down : ∀ (rho t : List ℚ), t.Pairwise (· < ·) → rho.Pairwise (· > ·) →
      ∀ d ∈ quotients exactNum.div exactNum.sub (rho.map .fin) (t.map .fin), Dbl.lt d (.fin 0) = true := by
    intro rho
    induction rho with
    | nil => intro t _ _ d hd; simp [quotients] at hd
    | cons r0 rho ih =>
      intro t ht hr d hd
      cases rho with
      | nil => cases t <;> simp [quotients] at hd
      | cons r1 rho =>
        cases t with
        | nil => simp [quotients] at hd
        | cons t0 t =>
          cases t with
          | nil => simp [quotients] at hd
          | cons t1 t =>
            have h1 : r0 > r1 := (List.pairwise_cons.1 hr).1 _ (by simp)
            have h2 : t0 < t1 := (List.pairwise_cons.1 ht).1 _ (by simp)
            simp only [List.map_cons, quotients, List.mem_cons] at hd
            rcases hd with rfl | hd
            · rw [quot _ _ _ _ h2]
              simp only [Dbl.lt_fin, decide_eq_true_eq]
              exact div_neg_of_neg_of_pos (by linarith) (by linarith)
            · exact ih (t1 :: t) (List.pairwise_cons.1 ht).2 (List.pairwise_cons.1 hr).2 d
                (by simpa [List.map_cons] using hd)
  refine ⟨fun hr => ⟨?_, fun d hd _ => (up rho t ht hr d hd).1⟩, fun hr d hd _ => down rho t ht hr d hd⟩
  obtain ⟨r0, rho, rfl⟩ : ∃ a l, rho = a :: l := List.exists_cons_of_length_pos (by omega)
  obtain ⟨r1, rho, rfl⟩ : ∃ a l, rho = a :: l := List.exists_cons_of_length_pos (by simp at hn; omega)
  obtain ⟨t0, t, rfl⟩ : ∃ a l, t = a :: l := List.exists_cons_of_length_pos (by simp at hl; omega)
  obtain ⟨t1, t, rfl⟩ : ∃ a l, t = a :: l := List.exists_cons_of_length_pos (by simp at hl; omega)
  have hm : exactNum.div (exactNum.sub (.fin r1) (.fin r0)) (exactNum.sub (.fin t1) (.fin t0)) ∈
      quotients exactNum.div exactNum.sub ((r0 :: r1 :: rho).map .fin) ((t0 :: t1 :: t).map .fin) := by
    simp [quotients]
  exact ⟨_, hm, (up _ _ ht hr _ hm).2⟩

example : Side.ingress.shows (quotients exactNum.div exactNum.sub ([30, 20, 5].map .fin) ([1, 2, 4].map .fin)) :=
  (C45_monotone [30, 20, 5] [1, 2, 4] rfl (by decide) (by decide +kernel)).2 (by decide +kernel)

end Verif
