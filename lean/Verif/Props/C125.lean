import Verif.Model.Pieces
import Verif.Props.C09
import Verif.Props.C116
import Mathlib.Algebra.Order.Floor.Semiring
import Mathlib.Data.List.Sort
import Mathlib.Tactic.Linarith

/-!
# C125 A range reconstructed in pieces: what the merged table holds
-/
namespace Verif.Batch
open Verif.Rsr (Py Exn)

namespace Spec

/-- `ps` cuts `[r0, r1]` into intervals of length at most `d`, from left to right, without gaps or overlaps. -/
structure Tiles (r0 r1 d : ℚ) (ps : List (ℚ × ℚ)) : Prop where
  first : ps.head?.map Prod.fst = some r0
  last : ps.getLast?.map Prod.snd = some r1
  joined : ∀ j p q, ps[j]? = some p → ps[j + 1]? = some q → p.2 = q.1
  small : ∀ p ∈ ps, p.1 < p.2 ∧ p.2 - p.1 ≤ d

/-- The reconstruction of `[lo, hi]` from the profile with radii `q`: the range was selected without an error, and all windows
of rows between the limits fit in the data. -/
structure Run (N : Num Dbl Cpx) (L : Lib) (q : List ℚ) (lo hi : ℚ) (t u : TauD) : Prop where
  data : ∃ F k v, RangeData t (q.map Dbl.fin) F k v
  lower : t.range0 = .fin lo
  upper : t.range1 = .fin hi
  ok : getWindowWidth N L t = .ok u
  fine : u.err = none
  windows : ∀ w n r, u.arr .w = some w → q[n]? = some r → lo ≤ r → r ≤ hi → Verif.Spec.WindowInside N (q.map Dbl.fin) w n

/-- No two tables overlap in radius. -/
def Apart {α : Type} (files : List (List (ℚ × α))) : Prop :=
  files.Pairwise fun f g => (∀ x ∈ f, ∀ y ∈ g, x.1 < y.1) ∨ (∀ x ∈ f, ∀ y ∈ g, y.1 < x.1)

end Spec
open Verif.Batch.Spec

/-! ### The pieces -/

/-- Piece `j`. -/
def pieceAt (r0 r1 d : ℚ) (j : Nat) : ℚ × ℚ :=
  (r0 + j * d, if r1 < r0 + j * d + d then r1 else r0 + j * d + d)

theorem subLoop_spec {r0 r1 d : ℚ} {K : Nat} (hK : ∀ j : Nat, r1 ≤ r0 + j * d + d ↔ K ≤ j + 1) :
    ∀ (fuel m : Nat) (acc : List (ℚ × ℚ)), m < K → K ≤ m + fuel →
      subLoop r0 r1 d fuel (m + 1) acc = some (K, acc ++ (List.range' m (K - m)).map (pieceAt r0 r1 d)) := by
  intro fuel
  induction fuel with
  | zero => intro m acc h1 h2; omega
  | succ fuel ih =>
    intro m acc h1 h2
    have e1 : (((m + 1 : ℕ) : ℚ) - 1) = m := by push_cast; ring
    rw [subLoop, e1]
    obtain ⟨l, hl⟩ : ∃ l, K - m = l + 1 := ⟨K - m - 1, by omega⟩
    by_cases hm : K ≤ m + 1
    · have hr := (hK m).2 hm
      have h3 : (if r1 < r0 + ↑m * d + d then r1 else r0 + ↑m * d + d) = r1 := by
        split
        · rfl
        · exact le_antisymm (not_lt.1 ‹_›) hr
      have hl0 : l = 0 := by omega
      subst hl0
      simp only [h3, hl, if_true, List.range'_succ, List.range'_zero, List.map_cons, List.map_nil, pieceAt]
      congr 2
      omega
    · have hr : ¬ r1 ≤ r0 + m * d + d := fun h => hm ((hK m).1 h)
      have h3 : (if r1 < r0 + ↑m * d + d then r1 else r0 + ↑m * d + d) = r0 + m * d + d := if_neg (by linarith)
      have h4 : ¬ (r0 + m * d + d = r1) := fun h => hr h.ge
      simp only [h3, if_neg h4]
      rw [ih (m + 1) _ (by omega) (by omega), hl, show K - (m + 1) = l by omega, List.range'_succ, List.map_cons,
        List.append_assoc, List.singleton_append, pieceAt, h3]

theorem ceil_iff {r0 r1 d : ℚ} (hd : 0 < d) (j : Nat) : r1 ≤ r0 + j * d + d ↔ ⌈(r1 - r0) / d⌉₊ ≤ j + 1 := by
  rw [Nat.ceil_le, div_le_iff₀ hd]
  push_cast
  constructor <;> intro h <;> linarith

theorem subdivide_eq {r0 r1 d : ℚ} (hd : 0 < d) (h : r0 < r1) {fuel : Nat} (hf : ⌈(r1 - r0) / d⌉₊ ≤ fuel) :
    subdivide r0 r1 d fuel = some (⌈(r1 - r0) / d⌉₊, (List.range ⌈(r1 - r0) / d⌉₊).map (pieceAt r0 r1 d)) := by
  have hp : 0 < ⌈(r1 - r0) / d⌉₊ := Nat.ceil_pos.2 (div_pos (by linarith) hd)
  rw [subdivide, subLoop_spec (ceil_iff hd) fuel 0 [] hp (by omega), List.nil_append, Nat.sub_zero, List.range_eq_range']

/-- **C125**, the pieces: for a positive piece length the loop ends, after as many passes as pieces are needed; the pieces
follow each other without gap or overlap from one end of the range to the other and none is longer than asked for. -/
theorem C125_tiles {r0 r1 d : ℚ} (hd : 0 < d) (h : r0 < r1) {fuel : Nat} (hf : ⌈(r1 - r0) / d⌉₊ ≤ fuel) :
    ∃ ps, subdivide r0 r1 d fuel = some (ps.length, ps) ∧ Tiles r0 r1 d ps ∧ (ps.length : ℤ) = ⌈(r1 - r0) / d⌉ := by
  have hp : 0 < ⌈(r1 - r0) / d⌉₊ := Nat.ceil_pos.2 (div_pos (by linarith) hd)
  have hc := ceil_iff (r0 := r0) (r1 := r1) hd
  refine ⟨(List.range ⌈(r1 - r0) / d⌉₊).map (pieceAt r0 r1 d), ?_, ⟨?_, ?_, ?_, ?_⟩, ?_⟩
  · rw [subdivide_eq hd h hf, List.length_map, List.length_range]
  · obtain ⟨K, e⟩ : ∃ K, ⌈(r1 - r0) / d⌉₊ = K + 1 := ⟨_, (Nat.sub_add_cancel hp).symm⟩
    rw [e, List.range_succ_eq_map]
    simp [pieceAt]
  · obtain ⟨K, e⟩ : ∃ K, ⌈(r1 - r0) / d⌉₊ = K + 1 := ⟨_, (Nat.sub_add_cancel hp).symm⟩
    rw [e, List.range_succ, List.map_append, List.map_cons, List.map_nil, List.getLast?_append_cons]
    have hr := (hc K).2 e.le
    simp only [List.getLast?_singleton, Option.map_some, pieceAt, Option.some.injEq]
    split
    · rfl
    · exact le_antisymm (not_lt.1 ‹_›) hr
  · intro j p q hp' hq'
    obtain ⟨hj, e⟩ := List.getElem?_eq_some_iff.1 hq'
    obtain ⟨hj', e'⟩ := List.getElem?_eq_some_iff.1 hp'
    simp only [List.length_map, List.length_range] at hj hj'
    rw [List.getElem_map, List.getElem_range] at e e'
    subst e e'
    have : ¬ r1 ≤ r0 + j * d + d := fun hh => by have := (hc j).1 hh; omega
    simp only [pieceAt]
    rw [if_neg (by linarith)]
    push_cast
    ring
  · intro p hp'
    obtain ⟨j, hj, rfl⟩ := List.mem_map.1 hp'
    have hj := List.mem_range.1 hj
    have h1 : r0 + j * d < r1 := by
      cases j with
      | zero => simpa using h
      | succ j =>
        by_contra hcon
        have := (hc j).1 (by push_cast at hcon; linarith)
        omega
    simp only [pieceAt]
    constructor
    · split <;> linarith
    · split <;> linarith
  · rw [List.length_map, List.length_range]
    exact Int.natCast_ceil_eq_ceil (by have := div_pos (show 0 < r1 - r0 by linarith) hd; linarith)

/-- A range that is empty or the wrong way round is one piece. -/
theorem C125_empty {r0 r1 d : ℚ} (hd : 0 ≤ d) (h : r1 ≤ r0) (fuel : Nat) : subdivide r0 r1 d (fuel + 1) = some (1, [(r0, r1)]) := by
  have : (if r1 < r0 + d then r1 else r0 + d) = r1 := by
    split
    · rfl
    · linarith
  simp [subdivide, subLoop, this]

/-- **C125**: without a positive piece length the loop never ends. -/
theorem C125_endless {r0 r1 d : ℚ} (hd : d ≤ 0) (h : r0 + d < r1) (fuel : Nat) : subdivide r0 r1 d fuel = none := by
  have key : ∀ (fuel m : Nat) acc, subLoop r0 r1 d fuel (m + 1) acc = none := by
    intro fuel
    induction fuel with
    | zero => intro m acc; rfl
    | succ fuel ih =>
      intro m acc
      have e1 : (((m + 1 : ℕ) : ℚ) - 1) = m := by push_cast; ring
      have h1 : (m : ℚ) * d ≤ 0 := mul_nonpos_of_nonneg_of_nonpos (Nat.cast_nonneg m) hd
      rw [subLoop, e1]
      rw [if_neg (show ¬ r1 < r0 + ↑m * d + d by linarith), if_neg (by intro hh; linarith)]
      exact ih _ _
  exact key fuel 0 []

/-- **C125**: with the piece length of the template there are never more pieces than processes, whatever the double division
does; all of it stays within whole kilometres. -/
theorem C125_workers {rnd : ℚ → ℚ} (hr : Verif.Rsr.Ieee rnd) {r0 r1 : ℤ} {workers : Nat} (hw : 0 < workers) (hw' : workers ≤ 2 ^ 26)
    (h : r0 < r1) (h' : r1 - r0 ≤ 2 ^ 26) {fuel : Nat} (hf : workers ≤ fuel) :
    ∃ ps, subdivide r0 r1 (pieceSize rnd r0 r1 workers) fuel = some (ps.length, ps) ∧ ps.length ≤ workers ∧
      Tiles r0 r1 (pieceSize rnd r0 r1 workers) ps ∧ ∀ p ∈ ps, ∃ a b : ℤ, p = ((a : ℚ), (b : ℚ)) := by
  have hw1 : (1 : ℚ) ≤ workers := by exact_mod_cast hw
  have hw0 : (0 : ℚ) < workers := by linarith
  have hw2 : (workers : ℚ) ≤ 2 ^ 26 := by exact_mod_cast hw'
  have hD : (1 : ℚ) ≤ (r1 - r0 : ℤ) := by exact_mod_cast (show (1 : ℤ) ≤ r1 - r0 by omega)
  have hD' : ((r1 - r0 : ℤ) : ℚ) ≤ 2 ^ 26 := by exact_mod_cast h'
  set x : ℚ := (r1 - r0 : ℤ) / (workers : ℚ) with hx
  have hxw : x * workers = (r1 - r0 : ℤ) := by rw [hx]; field_simp
  have hx0 : 1 / 2 ^ 26 ≤ x := by
    rw [hx, div_le_div_iff₀ (by norm_num) hw0]
    nlinarith
  have hx1 : x ≤ 2 ^ 26 := by
    have := div_le_self (a := ((r1 - r0 : ℤ) : ℚ)) (by linarith) hw1
    linarith
  have habs : |x| = x := abs_of_pos (by linarith [show (0:ℚ) < 1 / 2 ^ 26 by norm_num])
  have hrel := hr.rel x (by rw [habs]; exact le_trans (by norm_num) hx0) (by rw [habs]; exact le_trans hx1 (by norm_num))
  rw [habs, abs_le] at hrel
  -- the length times the number of processes covers the range
  have hcover : (r1 - r0 : ℤ) ≤ pieceSize rnd r0 r1 workers * workers := by
    by_contra hc
    push Not at hc
    have h1 : (pieceSize rnd r0 r1 workers : ℚ) * workers + 1 ≤ (r1 - r0 : ℤ) := by exact_mod_cast hc
    have h2 : rnd x ≤ pieceSize rnd r0 r1 workers := Int.le_ceil _
    have h3 : x - x / 2 ^ 53 ≤ pieceSize rnd r0 r1 workers := by linarith [hrel.1]
    have h4 : (x - x / 2 ^ 53) * workers ≤ pieceSize rnd r0 r1 workers * workers := mul_le_mul_of_nonneg_right h3 hw0.le
    have h5 : x / 2 ^ 53 * workers = (r1 - r0 : ℤ) / 2 ^ 53 := by rw [← hxw]; ring
    have h6 : ((r1 - r0 : ℤ) : ℚ) / 2 ^ 53 < 1 := by
      rw [div_lt_one (by norm_num)]
      exact lt_of_le_of_lt hD' (by norm_num)
    nlinarith
  have hcover' : ((r1 - r0 : ℤ) : ℚ) ≤ pieceSize rnd r0 r1 workers * workers := by exact_mod_cast hcover
  have hd : (0 : ℚ) < pieceSize rnd r0 r1 workers := by
    by_contra hc
    nlinarith
  have hceil : ⌈((r1 : ℚ) - r0) / (pieceSize rnd r0 r1 workers : ℚ)⌉₊ ≤ workers := by
    rw [Nat.ceil_le, div_le_iff₀ hd]
    push_cast at hcover'
    linarith
  obtain ⟨ps, e, ht, -⟩ := C125_tiles hd (by exact_mod_cast h : (r0 : ℚ) < r1) (le_trans hceil hf)
  have e2 := subdivide_eq hd (by exact_mod_cast h : (r0 : ℚ) < r1) (le_trans hceil hf)
  rw [e] at e2
  obtain ⟨e3, e4⟩ := Prod.mk.inj (Option.some.inj e2)
  refine ⟨ps, e, by omega, ht, ?_⟩
  rw [e4]
  intro p hp
  obtain ⟨j, -, rfl⟩ := List.mem_map.1 hp
  simp only [pieceAt]
  split
  · exact ⟨r0 + j * pieceSize rnd r0 r1 workers, r1, by push_cast; rfl⟩
  · exact ⟨r0 + j * pieceSize rnd r0 r1 workers, r0 + j * pieceSize rnd r0 r1 workers + pieceSize rnd r0 r1 workers, by
      push_cast; rfl⟩

/-! ### The rows of the pieces -/

theorem ascending_of {q : List ℚ} (hq : q.Pairwise (· < ·)) : Verif.Spec.Ascending (q.map Dbl.fin) := by
  intro i j x y hij hi hj
  obtain ⟨hi', rfl⟩ := List.getElem?_eq_some_iff.1 hi
  obtain ⟨hj', rfl⟩ := List.getElem?_eq_some_iff.1 hj
  simp only [List.length_map] at hi' hj'
  simp only [List.getElem_map]
  rcases Nat.eq_or_lt_of_le hij with rfl | h
  · exact Dbl.le_refl rfl
  · have := List.pairwise_iff_getElem.1 hq i j hi' hj' h
    simp [Dbl.le, this]

/-- What a run keeps: the rows between the limits, without the last one. -/
theorem run_rows {N : Num Dbl Cpx} {L : Lib} {q : List ℚ} {lo hi : ℚ} {t u : TauD} (R : Run N L q lo hi t u)
    (hq : q.Pairwise (· < ·)) (n : Nat) :
    Verif.Spec.InRange u n ↔ ∃ r r', q[n]? = some r ∧ q[n + 1]? = some r' ∧ lo ≤ r ∧ r' ≤ hi := by
  obtain ⟨F, k, v, d⟩ := R.data
  obtain ⟨s, m, i, x0, x1, w, idx, S⟩ := d.selected R.ok R.fine
  have hres := S.result
  have hreq : ∀ (n : Nat) (r : ℚ), q[n]? = some r → ((s ≤ n ∧ n < s + m) ↔ lo ≤ r ∧ r ≤ hi) := by
    intro n r hn
    have h1 : (q.map Dbl.fin)[n]? = some (.fin r) := by rw [List.getElem?_map, hn]; rfl
    rw [S.requested d.lrho (ascending_of hq) (by rw [R.lower]; rfl) h1, R.lower, R.upper]
    simp [Dbl.le, le_iff_lt_or_eq]
  have hlen : q.length = t.arrSize := by rw [← d.lrho, List.length_map]
  have hfits := S.fits
  have him := S.i_lt
  have hle := S.idx_le
  have hpos := S.idx_pos
  have hget : ∀ n, s ≤ n → n < s + m → ∃ r, q[n]? = some r ∧ lo ≤ r ∧ r ≤ hi := by
    intro n h1 h2
    have hn : n < q.length := by omega
    exact ⟨q[n], by simp [hn], (hreq n q[n] (by simp [hn])).1 ⟨h1, h2⟩⟩
  have hlegal : ∀ n, s ≤ n → n < s + m → LegalLeft N (q.map Dbl.fin) w n ∧ LegalRight N (q.map Dbl.fin) w n := by
    intro n h1 h2
    obtain ⟨r, h3, h4, h5⟩ := hget n h1 h2
    rw [← windowInside_iff]
    exact R.windows w n r (by rw [hres]; simp [Tau.setArr]) h3 h4 h5
  have hi0 : i = 0 := by
    by_contra hne
    exact S.left_cut 0 (by omega) (hlegal (s + 0) (by omega) (by omega)).1
  subst hi0
  have hclosed : Closed N (q.map Dbl.fin) w s m :=
    ⟨fun a b h1 h2 h3 _ => (hlegal a h1 (by omega)).2, fun a b h1 h2 h3 _ => (hlegal b (by omega) h3).1⟩
  have hall : idx.length = m := by
    have := (S.mem_idx hclosed (m - 1)).1 ((S.right _).2 ⟨by omega, (hlegal (s + 0 + (m - 1)) (by omega) (by omega)).2⟩)
    omega
  have hstart : u.start = s := by rw [hres]; rfl
  have hused : u.nUsed = m - 1 := by rw [hres, ← hall]; rfl
  rw [Verif.Spec.InRange, hstart, hused]
  constructor
  · rintro ⟨h1, h2⟩
    obtain ⟨r, a1, a2, -⟩ := hget n h1 (by omega)
    obtain ⟨r', b1, -, b3⟩ := hget (n + 1) (by omega) (by omega)
    exact ⟨r, r', a1, b1, a2, b3⟩
  · rintro ⟨r, r', a1, b1, a2, b3⟩
    have hlt : r < r' := by
      obtain ⟨h1, rfl⟩ := List.getElem?_eq_some_iff.1 a1
      obtain ⟨h2, rfl⟩ := List.getElem?_eq_some_iff.1 b1
      exact List.pairwise_iff_getElem.1 hq n (n + 1) h1 h2 (by omega)
    have h1 := (hreq n r a1).2 ⟨a2, by linarith⟩
    have h2 := (hreq (n + 1) r' b1).2 ⟨by linarith, b3⟩
    omega

theorem Spec.Tiles.le {r0 r1 d : ℚ} {ps : List (ℚ × ℚ)} (T : Tiles r0 r1 d ps) :
    ∀ (k i : Nat) (p p' : ℚ × ℚ), ps[i]? = some p → ps[i + k + 1]? = some p' → p.2 ≤ p'.1 := by
  intro k
  induction k with
  | zero => intro i p p' h h'; exact (T.joined i p p' h h').le
  | succ k ih =>
    intro i p p' h h'
    have hl := (List.getElem?_eq_some_iff.1 h').1
    have hm : ps[i + k + 1]? = some ps[i + k + 1] := by simp [show i + k + 1 < ps.length by omega]
    have h1 := ih i p _ h hm
    have h2 := T.joined _ _ _ hm h'
    have h3 := (T.small _ (List.mem_of_getElem? hm)).1
    linarith

/-- **C125**, no row twice: the runs over two pieces have no row in common. -/
theorem C125_once {N : Num Dbl Cpx} {L : Lib} {q : List ℚ} {r0 r1 d : ℚ} {ps : List (ℚ × ℚ)} (T : Tiles r0 r1 d ps)
    (hq : q.Pairwise (· < ·)) {ts us : Nat → TauD} (R : ∀ j p, ps[j]? = some p → Run N L q p.1 p.2 (ts j) (us j))
    {i j n : Nat} (hi : i < ps.length) (hj : j < ps.length) (h : Verif.Spec.InRange (us i) n)
    (h' : Verif.Spec.InRange (us j) n) : i = j := by
  have key : ∀ i j, i < j → j < ps.length → Verif.Spec.InRange (us i) n → Verif.Spec.InRange (us j) n → False := by
    intro i j hij hj h h'
    have e1 : ps[i]? = some ps[i] := by simp [show i < ps.length by omega]
    have e2 : ps[j]? = some ps[j] := by simp [hj]
    obtain ⟨r, r', a1, a2, a3, a4⟩ := (run_rows (R i _ e1) hq n).1 h
    obtain ⟨s, s', b1, b2, b3, b4⟩ := (run_rows (R j _ e2) hq n).1 h'
    rw [a1] at b1
    cases b1
    have hlt : r < r' := by
      obtain ⟨h1, rfl⟩ := List.getElem?_eq_some_iff.1 a1
      obtain ⟨h2, rfl⟩ := List.getElem?_eq_some_iff.1 a2
      exact List.pairwise_iff_getElem.1 hq n (n + 1) h1 h2 (by omega)
    have := T.le (j - i - 1) i _ _ e1 (by rw [show i + (j - i - 1) + 1 = j by omega]; exact e2)
    linarith
  rcases lt_trichotomy i j with hlt | he | hgt
  · exact (key i j hlt hj h h').elim
  · exact he
  · exact (key j i hgt hi h' h).elim

/-- A radius of the range is in one of the pieces, half open. -/
theorem Spec.Tiles.find {r0 r1 d : ℚ} {ps : List (ℚ × ℚ)} (T : Tiles r0 r1 d ps) {x : ℚ} (h0 : r0 ≤ x) (h1 : x < r1) :
    ∃ (j : Nat) (p : ℚ × ℚ), ps[j]? = some p ∧ p.1 ≤ x ∧ x < p.2 := by
  have key : ∀ k j p, j + k + 1 = ps.length → ps[j]? = some p → p.1 ≤ x → ∃ (j : Nat) (p : ℚ × ℚ), ps[j]? = some p ∧ p.1 ≤ x ∧ x < p.2 := by
    intro k
    induction k with
    | zero =>
      intro j p hj hp hx
      refine ⟨j, p, hp, hx, ?_⟩
      have := T.last
      rw [List.getLast?_eq_getElem?, show ps.length - 1 = j by omega, hp] at this
      have : p.2 = r1 := by simpa using this
      linarith
    | succ k ih =>
      intro j p hj hp hx
      by_cases hc : x < p.2
      · exact ⟨j, p, hp, hx, hc⟩
      · have e2 : ps[j + 1]? = some ps[j + 1] := by simp [show j + 1 < ps.length by omega]
        exact ih (j + 1) _ (by omega) e2 (by rw [← T.joined j _ _ hp e2]; linarith)
  have hne : ps.length ≠ 0 := by
    intro h
    have := T.first
    rw [List.length_eq_zero_iff.1 h] at this
    cases this
  have e0 : ps[0]? = some ps[0] := by simp [show 0 < ps.length by omega]
  refine key (ps.length - 1) 0 _ (by omega) e0 ?_
  have := T.first
  rw [List.head?_eq_getElem?, e0] at this
  have : ps[0].1 = r0 := by simpa using this
  linarith

theorem Spec.Tiles.low {r0 r1 d : ℚ} {ps : List (ℚ × ℚ)} (T : Tiles r0 r1 d ps) {j : Nat} {p : ℚ × ℚ} (h : ps[j]? = some p) :
    r0 ≤ p.1 := by
  have hl := (List.getElem?_eq_some_iff.1 h).1
  have e0 : ps[0]? = some ps[0] := by simp [show 0 < ps.length by omega]
  have hf := T.first
  rw [List.head?_eq_getElem?, e0] at hf
  have hf : ps[0].1 = r0 := by simpa using hf
  rcases Nat.eq_zero_or_pos j with rfl | hj
  · rw [e0] at h
    cases h
    exact hf.ge
  · have := T.le (j - 1) 0 _ _ e0 (by rw [show 0 + (j - 1) + 1 = j by omega]; exact h)
    have := (T.small _ (List.mem_of_getElem? e0)).1
    linarith

theorem Spec.Tiles.high {r0 r1 d : ℚ} {ps : List (ℚ × ℚ)} (T : Tiles r0 r1 d ps) {j : Nat} {p : ℚ × ℚ} (h : ps[j]? = some p) :
    p.2 ≤ r1 := by
  have hl := (List.getElem?_eq_some_iff.1 h).1
  have e0 : ps[ps.length - 1]? = some ps[ps.length - 1] := by simp [show 0 < ps.length by omega]
  have hf := T.last
  rw [List.getLast?_eq_getElem?, e0] at hf
  have hf : ps[ps.length - 1].2 = r1 := by simpa using hf
  by_cases hj : j = ps.length - 1
  · subst hj
    rw [e0] at h
    cases h
    exact hf.le
  · have := T.le (ps.length - 1 - j - 1) j _ _ h (by rw [show j + (ps.length - 1 - j - 1) + 1 = ps.length - 1 by omega]; exact e0)
    have := (T.small _ (List.mem_of_getElem? e0)).1
    linarith

/-- **C125**, all rows: if every limit between two pieces is the radius of a row, the runs over the pieces together have exactly
the rows of a single run over the whole range. -/
theorem C125_complete_partial {N : Num Dbl Cpx} {L : Lib} {q : List ℚ} {r0 r1 d : ℚ} {ps : List (ℚ × ℚ)} (T : Tiles r0 r1 d ps)
    (hq : q.Pairwise (· < ·)) {ts us : Nat → TauD} (R : ∀ j p, ps[j]? = some p → Run N L q p.1 p.2 (ts j) (us j))
    {t u : TauD} (W : Run N L q r0 r1 t u) (hb : ∀ j p, j + 1 < ps.length → ps[j]? = some p → p.2 ∈ q) (n : Nat) :
    (∃ j, j < ps.length ∧ Verif.Spec.InRange (us j) n) ↔ Verif.Spec.InRange u n := by
  rw [run_rows W hq n]
  constructor
  · rintro ⟨j, hj, h⟩
    have e : ps[j]? = some ps[j] := by simp [hj]
    obtain ⟨r, r', a1, a2, a3, a4⟩ := (run_rows (R j _ e) hq n).1 h
    exact ⟨r, r', a1, a2, le_trans (T.low e) a3, le_trans a4 (T.high e)⟩
  · rintro ⟨r, r', a1, a2, a3, a4⟩
    obtain ⟨h1, rfl⟩ := List.getElem?_eq_some_iff.1 a1
    obtain ⟨h2, rfl⟩ := List.getElem?_eq_some_iff.1 a2
    have hlt : q[n] < q[n + 1] := List.pairwise_iff_getElem.1 hq n (n + 1) h1 h2 (by omega)
    obtain ⟨j, p, e, b1, b2⟩ := T.find a3 (by linarith : q[n] < r1)
    have hj := (List.getElem?_eq_some_iff.1 e).1
    refine ⟨j, hj, (run_rows (R j p e) hq n).2 ⟨_, _, a1, a2, b1, ?_⟩⟩
    by_cases hl : j + 1 < ps.length
    · obtain ⟨k, hk, hke⟩ := List.mem_iff_getElem.1 (hb j p hl e)
      rw [← hke] at b2 ⊢
      have hnk : n < k := by
        by_contra hc
        rcases Nat.eq_or_lt_of_le (not_lt.1 hc) with h | h
        · subst h; exact lt_irrefl _ b2
        · have := List.pairwise_iff_getElem.1 hq k n hk h1 h
          linarith
      rcases Nat.eq_or_lt_of_le (show n + 1 ≤ k from hnk) with h | h
      · subst h; exact le_refl _
      · exact (List.pairwise_iff_getElem.1 hq (n + 1) k h2 hk h).le
    · have hf := T.last
      rw [List.getLast?_eq_getElem?, show ps.length - 1 = j by omega, e] at hf
      have hf : p.2 = r1 := by simpa using hf
      rw [hf]
      exact a4

/-- **C125** is false of other limits: if a limit between two pieces falls between two rows, the row before it is in the single
run over the whole range, but in none of the pieces. -/
theorem C125_lost_false {N : Num Dbl Cpx} {L : Lib} {q : List ℚ} {r0 r1 d : ℚ} {ps : List (ℚ × ℚ)} (T : Tiles r0 r1 d ps)
    (hq : q.Pairwise (· < ·)) {ts us : Nat → TauD} (R : ∀ j p, ps[j]? = some p → Run N L q p.1 p.2 (ts j) (us j))
    {t u : TauD} (W : Run N L q r0 r1 t u) {i n : Nat} {p : ℚ × ℚ} {r r' : ℚ} (hp : ps[i]? = some p) (hr : q[n]? = some r)
    (hr' : q[n + 1]? = some r') (h0 : r0 ≤ r) (h1 : r < p.2) (h2 : p.2 < r') (h3 : r' ≤ r1) :
    Verif.Spec.InRange u n ∧ ∀ j, j < ps.length → ¬ Verif.Spec.InRange (us j) n := by
  refine ⟨(run_rows W hq n).2 ⟨r, r', hr, hr', h0, h3⟩, ?_⟩
  intro j hj h
  have e : ps[j]? = some ps[j] := by simp [hj]
  obtain ⟨s, s', a1, a2, a3, a4⟩ := (run_rows (R j _ e) hq n).1 h
  rw [hr] at a1
  cases a1
  rw [hr'] at a2
  cases a2
  rcases lt_trichotomy i j with hlt | rfl | hgt
  · have := T.le (j - i - 1) i _ _ hp (by rw [show i + (j - i - 1) + 1 = j by omega]; exact e)
    linarith
  · rw [hp] at e
    have : p = ps[i] := by simpa using e
    rw [← this] at a4
    linarith
  · have := T.le (i - j - 1) j _ _ e (by rw [show j + (i - j - 1) + 1 = i by omega]; exact hp)
    have := (T.small _ (List.mem_of_getElem? hp)).1
    linarith

/-! ### The merged table -/

theorem mapM_first {α : Type} : ∀ (files : List (List (ℚ × α))), (∀ f ∈ files, 2 ≤ f.length) →
    ∃ rs, files.mapM firstRadius = Except.ok rs ∧ rs.length = files.length ∧
      ∀ x ∈ rs.zip files, x.2.head?.map Prod.fst = some x.1 := by
  intro files
  induction files with
  | nil => intro _; exact ⟨[], rfl, rfl, by simp⟩
  | cons f fs ih =>
    intro h
    obtain ⟨rs, e, hl, hx⟩ := ih fun f hf => h f (List.mem_cons_of_mem _ hf)
    have hf := h f List.mem_cons_self
    match f, hf with
    | a :: b :: l, _ =>
      refine ⟨a.1 :: rs, ?_, by simp [hl], ?_⟩
      · simp only [List.mapM_cons, e, firstRadius, bind, Except.bind, pure, Except.pure]
      · intro x hx'
        rw [List.zip_cons_cons, List.mem_cons] at hx'
        rcases hx' with rfl | hx'
        · rfl
        · exact hx x hx'

/-- **C125**, merging: in whatever order the directory lists the tables, the merged table has exactly their rows, in the order
of the radii.  Partial: needs two rows in every table. -/
theorem C125_merge_partial {α : Type} {files : List (List (ℚ × α))} (h0 : files ≠ []) (h2 : ∀ f ∈ files, 2 ≤ f.length)
    (hs : ∀ f ∈ files, f.Pairwise fun x y => x.1 < y.1) (ha : Apart files) :
    ∃ out, mergeTab files = .ok out ∧ out.Perm files.flatten ∧ out.Pairwise fun x y => x.1 < y.1 := by
  obtain ⟨rs, e, hl, hx⟩ := mapM_first files h2
  have hm : mergeTab files = .ok (((rs.zip files).insertionSort fun a b => a.1 ≤ b.1).flatMap Prod.snd) := by
    match files, h0 with
    | f :: fs, _ => simp only [mergeTab, e, bind, Except.bind]
  have hperm : ((rs.zip files).insertionSort fun a b => a.1 ≤ b.1).Perm (rs.zip files) := List.perm_insertionSort _ _
  have hsnd : (rs.zip files).map Prod.snd = files := List.map_snd_zip (by omega)
  refine ⟨_, hm, ?_, ?_⟩
  · have := (hperm.map Prod.snd).flatten
    rw [hsnd] at this
    rwa [List.flatMap_def]
  · rw [List.flatMap_def, List.pairwise_flatten]
    constructor
    · intro l hl'
      obtain ⟨x, hx', rfl⟩ := List.mem_map.1 hl'
      have : x.2 ∈ files := by
        rw [← hsnd]
        exact List.mem_map_of_mem (hperm.mem_iff.1 hx')
      exact hs _ this
    · rw [List.pairwise_map]
      have hsorted : ((rs.zip files).insertionSort fun a b => a.1 ≤ b.1).Pairwise fun a b => a.1 ≤ b.1 := by
        have : IsTrans (ℚ × List (ℚ × α)) fun a b => a.1 ≤ b.1 := ⟨fun a b c h h' => le_trans h h'⟩
        have : Std.Total fun (a b : ℚ × List (ℚ × α)) => a.1 ≤ b.1 := ⟨fun a b => le_total a.1 b.1⟩
        exact List.pairwise_insertionSort _ _
      have hap : ((rs.zip files).insertionSort fun a b => a.1 ≤ b.1).Pairwise fun f g =>
          (∀ x ∈ f.2, ∀ y ∈ g.2, x.1 < y.1) ∨ (∀ x ∈ f.2, ∀ y ∈ g.2, y.1 < x.1) := by
        refine (hperm.symm.pairwise_iff ?_).1 ?_
        · intro a b h
          rcases h with h | h
          · exact .inr fun x hx y hy => h y hy x hx
          · exact .inl fun x hx y hy => h y hy x hx
        · have ha' : Apart ((rs.zip files).map Prod.snd) := by rw [hsnd]; exact ha
          exact List.pairwise_map.1 ha'
      have hboth := hsorted.and hap
      refine hboth.imp_of_mem ?_
      rintro a b ha' hb' ⟨h1, h | h⟩
      · exact h
      · exfalso
        have ea := hx a (hperm.mem_iff.1 ha')
        have eb := hx b (hperm.mem_iff.1 hb')
        match hfa : a.2, hfb : b.2 with
        | [], _ => rw [hfa] at ea; cases ea
        | _ :: _, [] => rw [hfb] at eb; cases eb
        | x :: _, y :: _ =>
          rw [hfa] at ea
          rw [hfb] at eb
          have ea : x.1 = a.1 := by simpa using ea
          have eb : y.1 = b.1 := by simpa using eb
          have := h x (by rw [hfa]; exact List.mem_cons_self) y (by rw [hfb]; exact List.mem_cons_self)
          linarith

/-- **C125** is false of a piece with a single row: the merging stops with an `IndexError`. -/
theorem C125_merge_false : mergeTab [[((1 : ℚ), "a"), (2, "b")], [(3, "c")]] = .error .index := by decide +kernel

/-! ### Examples -/

/-- A hundred processes for 77690 km to 77910 km: 74 pieces of 3 km. -/
example : pieceSize Verif.Rsr.rnd53 77690 77910 100 = 3 ∧
    (subdivide 77690 77910 3 100).map (fun r => (r.1, r.2.take 2, r.2.getLast?)) =
      some (74, [(77690, 77693), (77693, 77696)], some (77909, 77910)) := by
  constructor <;> decide +kernel

example : subdivide 0 10 0 1000 = none := C125_endless (le_refl 0) (by norm_num) 1000

example : ∃ ps, subdivide (77690 : ℤ) (77910 : ℤ) (pieceSize Verif.Rsr.rnd53 77690 77910 100) 100 = some (ps.length, ps) ∧
    ps.length ≤ 100 := by
  obtain ⟨ps, h, h', -⟩ := C125_workers Verif.Rsr.rnd53_ieee (r0 := 77690) (r1 := 77910) (workers := 100) (by norm_num) (by norm_num)
    (by norm_num) (by norm_num) (le_refl 100)
  exact ⟨ps, h, h'⟩

/-- Radii 10, 11, ..., 19. -/
def demoRadii : List ℚ := [10, 11, 12, 13, 14, 15, 16, 17, 18, 19]

/-- A profile with these radii and windows of 1 km. -/
def demoTau (lo hi : ℚ) : TauD := { winTau (demoRadii.map Dbl.fin) flatV (.fin lo) (.fin 1) false with range1 := .fin hi }

/-- The selected range, if all went well. -/
def demoEnd (lo hi : ℚ) : TauD :=
  match getWindowWidth exactNum unitLib (demoTau lo hi) with
  | .ok u => u
  | .ub _ => demoTau lo hi

theorem demo_run {lo hi : ℚ}
    (h : (match getWindowWidth exactNum unitLib (demoTau lo hi) with
      | .ok u => u.err == none && (List.range 10).all fun n =>
          !(decide (lo ≤ 10 + n) && decide ((10 : ℚ) + n ≤ hi)) ||
            ((u.arr .w).bind (fun w => w[n]?) == some (.fin 1) && decide (1 ≤ n) && decide (n ≤ 8))
      | .ub _ => false) = true) : Run exactNum unitLib demoRadii lo hi (demoTau lo hi) (demoEnd lo hi) := by
  cases e : getWindowWidth exactNum unitLib (demoTau lo hi) with
  | ub a => rw [e] at h; cases h
  | ok u =>
    have he : demoEnd lo hi = u := by rw [demoEnd, e]
    rw [e] at h
    simp only [Bool.and_eq_true, beq_iff_eq, List.all_eq_true, List.mem_range] at h
    rw [he]
    refine ⟨⟨_, _, _, ⟨rfl, rfl, rfl, rfl, rfl, rfl, rfl, rfl, rfl, by show 1 < 10; decide⟩⟩, rfl, rfl, e, h.1, ?_⟩
    intro w n r hw hn h1 h2
    obtain ⟨hl, hr⟩ := List.getElem?_eq_some_iff.1 hn
    have hlen : n < 10 := hl
    have hr' : r = 10 + n := by
      rw [← hr]
      have : ∀ (n : Nat) (h : n < 10), demoRadii[n]'h = 10 + (n : ℚ) := by decide +kernel
      exact this n hlen
    have h3 := h.2 n hlen
    rw [hr'] at h1 h2
    simp only [h1, h2, decide_true, Bool.and_self, Bool.not_true, Bool.false_or, Bool.and_eq_true, beq_iff_eq,
      decide_eq_true_eq, hw, Option.bind_some] at h3
    obtain ⟨⟨h4, h5⟩, h6⟩ := h3
    refine ⟨.fin r, .fin 1, .fin 10, .fin 19, by rw [List.getElem?_map, hn]; rfl, h4, rfl, rfl, ?_, ?_⟩
    · have h5' : (1 : ℚ) ≤ n := by exact_mod_cast h5
      simp only [exactNum, Dbl.op, Dbl.lt, hr', decide_eq_true_eq]
      linarith
    · have h6' : (n : ℚ) ≤ 8 := by exact_mod_cast h6
      simp only [exactNum, Dbl.op, Dbl.lt, hr', decide_eq_true_eq]
      linarith

theorem demo_whole : Run exactNum unitLib demoRadii 12 17 (demoTau 12 17) (demoEnd 12 17) := demo_run (by decide +kernel)

/-- Pieces of 2 km: their limits are radii of rows. -/
def demoPieces : List (ℚ × ℚ) := [(12, 14), (14, 16), (16, 17)]

theorem demo_tiles : Tiles 12 17 2 demoPieces := by
  obtain ⟨ps, h, h', -⟩ := C125_tiles (r0 := 12) (r1 := 17) (d := 2) (by norm_num) (by norm_num) (fuel := 3) (by norm_num)
  have : subdivide 12 17 2 3 = some (3, demoPieces) := by decide +kernel
  rw [this] at h
  obtain ⟨-, rfl⟩ := Prod.mk.inj (Option.some.inj h)
  exact h'

theorem demo_runs (j : Nat) (p : ℚ × ℚ) (h : demoPieces[j]? = some p) :
    Run exactNum unitLib demoRadii p.1 p.2 (demoTau p.1 p.2) (demoEnd p.1 p.2) := by
  have : p = (12, 14) ∨ p = (14, 16) ∨ p = (16, 17) := by
    have := List.mem_of_getElem? h
    simpa [demoPieces] using this
  rcases this with rfl | rfl | rfl <;> exact demo_run (by decide +kernel)

/-- Row 4 (radius 14) is in the single run, and so it is in one of the pieces, in just one. -/
example : (∃ j, j < 3 ∧ Verif.Spec.InRange (demoEnd (demoPieces.getD j (0, 0)).1 (demoPieces.getD j (0, 0)).2) 4) ∧
    ∀ i j, i < 3 → j < 3 → Verif.Spec.InRange (demoEnd (demoPieces.getD i (0, 0)).1 (demoPieces.getD i (0, 0)).2) 4 →
      Verif.Spec.InRange (demoEnd (demoPieces.getD j (0, 0)).1 (demoPieces.getD j (0, 0)).2) 4 → i = j := by
  have R : ∀ j p, demoPieces[j]? = some p → Run exactNum unitLib demoRadii p.1 p.2
      (demoTau (demoPieces.getD j (0, 0)).1 (demoPieces.getD j (0, 0)).2)
      (demoEnd (demoPieces.getD j (0, 0)).1 (demoPieces.getD j (0, 0)).2) := by
    intro j p h
    have e : demoPieces.getD j (0, 0) = p := by rw [List.getD_eq_getElem?_getD, h]; rfl
    rw [e]
    exact demo_runs j p h
  constructor
  · refine (C125_complete_partial demo_tiles (by decide +kernel) R demo_whole ?_ 4).2 ?_
    · intro j p hj h
      have hj : j + 1 < 3 := hj
      have hj : j < 2 := by omega
      interval_cases j <;> cases h <;> decide +kernel
    · exact (run_rows demo_whole (by decide +kernel) 4).2 ⟨14, 15, rfl, rfl, by norm_num, by norm_num⟩
  · intro i j hi hj h h'
    exact C125_once demo_tiles (by decide +kernel) R hi hj h h'

/-- Pieces of 2.5 km: row 4 (radius 14) is lost between 12 to 14.5 and 14.5 to 17. -/
example : Verif.Spec.InRange (demoEnd 12 17) 4 ∧
    ∀ j, j < 2 → ¬ Verif.Spec.InRange (if j = 0 then demoEnd 12 (29 / 2) else demoEnd (29 / 2) 17) 4 := by
  obtain ⟨ps, h, h', -⟩ := C125_tiles (r0 := 12) (r1 := 17) (d := 5 / 2) (by norm_num) (by norm_num) (fuel := 2) (by norm_num)
  have : subdivide 12 17 (5 / 2) 2 = some (2, [(12, 29 / 2), (29 / 2, 17)]) := by decide +kernel
  rw [this] at h
  obtain ⟨-, rfl⟩ := Prod.mk.inj (Option.some.inj h)
  refine C125_lost_false (ts := fun j => if j = 0 then demoTau 12 (29 / 2) else demoTau (29 / 2) 17) h' (by decide +kernel) ?_ demo_whole
    (i := 0) (n := 4) rfl rfl rfl (by norm_num) (by norm_num) (by norm_num) (by norm_num)
  intro j p hp
  have hj : j < 2 := (List.getElem?_eq_some_iff.1 hp).1
  interval_cases j <;> cases hp <;> exact demo_run (by decide +kernel)

/-- Three tables, listed in another order. -/
example : mergeTab [[((14 : ℚ), "c"), (15, "d")], [(16, "e"), (17, "f")], [(12, "a"), (13, "b")]] =
    .ok [(12, "a"), (13, "b"), (14, "c"), (15, "d"), (16, "e"), (17, "f")] := by decide +kernel

example : ∃ out, mergeTab [[((14 : ℚ), "c"), (15, "d")], [(12, "a"), (13, "b")]] = .ok out ∧ out.Pairwise fun x y => x.1 < y.1 := by
  obtain ⟨out, h, -, h'⟩ := C125_merge_partial (files := [[((14 : ℚ), "c"), (15, "d")], [(12, "a"), (13, "b")]]) (by simp)
    (by decide) (by decide +kernel) (by unfold Apart; decide +kernel)
  exact ⟨out, h, h'⟩

end Verif.Batch
