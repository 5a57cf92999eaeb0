import Verif.Props.C87
import Verif.Props.C84

/-!
# C88: times of the free-space regions
-/
namespace Verif.Geo
open Verif.Rsr Spec

theorem getD_at {l : List ℚ} {i : Nat} (h : i < l.length) : l.getD i 0 = l[i] := by
  rw [List.getD_eq_getElem?_getD, List.getElem?_eq_getElem h]; rfl

theorem Spec.Growing.lt {l : List ℚ} (h : Growing l) {i j : Nat} (hij : i < j) (hj : j < l.length) : l.getD i 0 < l.getD j 0 := by
  rw [getD_at hj, getD_at (hij.trans hj)]
  exact List.pairwise_iff_getElem.mp h i j (hij.trans hj) hj hij

theorem Spec.Growing.le {l : List ℚ} (h : Growing l) {i j : Nat} (hij : i ≤ j) (hj : j < l.length) : l.getD i 0 ≤ l.getD j 0 := by
  rcases Nat.lt_or_eq_of_le hij with h' | rfl
  · exact (h.lt h' hj).le
  · exact le_refl _

theorem countP_growing {x y : List ℚ} (h : Growing x) (hl : x.length = y.length) (v : ℚ) :
    (x.zip y).countP (fun p => p.1 < v) ≤ x.length ∧
    ∀ j, j < x.length → (j < (x.zip y).countP (fun p => p.1 < v) ↔ x.getD j 0 < v) := by
  induction x generalizing y with
  | nil => exact ⟨by simp, fun j hj => by simp at hj⟩
  | cons a x ih =>
    cases y with
    | nil => simp at hl
    | cons b y =>
      unfold Growing at h
      rw [List.pairwise_cons] at h
      obtain ⟨ih1, ih2⟩ := ih h.2 (by simpa using hl)
      rw [List.zip_cons_cons, List.countP_cons]
      by_cases hv : a < v
      · simp only [hv, decide_true, if_true]
        refine ⟨by simp; omega, ?_⟩
        intro j hj
        cases j with
        | zero => simp [hv]
        | succ j =>
          have := ih2 j (by simpa using hj)
          rw [List.getD_cons_succ, ← this]
          omega
      · have z : (x.zip y).countP (fun p => p.1 < v) = 0 := by
          rw [List.countP_eq_zero]
          rintro ⟨p, q⟩ hp
          have := h.1 p (List.of_mem_zip hp).1
          simp only [decide_eq_true_eq, not_lt]
          linarith
        simp only [hv, decide_false, z]
        refine ⟨by simp, ?_⟩
        intro j hj
        refine ⟨fun h => by simp at h, fun h' => ?_⟩
        cases j with
        | zero => simp at h'; exact absurd h' hv
        | succ j =>
          rw [List.getD_cons_succ] at h'
          have hj' : j < x.length := by simpa using hj
          rw [getD_at hj'] at h'
          have := h.1 x[j] (List.getElem_mem hj')
          linarith

theorem sort_growing {x y : List ℚ} (h : Growing x) : (x.zip y).insertionSort (fun p q => p.1 ≤ q.1) = x.zip y := by
  apply List.Pairwise.insertionSort_eq
  induction x generalizing y with
  | nil => simp
  | cons a x ih =>
    cases y with
    | nil => simp
    | cons b y =>
      unfold Growing at h
      rw [List.pairwise_cons] at h
      rw [List.zip_cons_cons, List.pairwise_cons]
      exact ⟨fun p hp => (h.1 p.1 (List.of_mem_zip (show (p.1, p.2) ∈ x.zip y from hp)).1).le, ih h.2⟩

theorem insert_last (a : ℚ × ℚ) : ∀ l : List (ℚ × ℚ), (∀ b ∈ l, b.1 < a.1) →
    l.orderedInsert (fun p q => p.1 ≤ q.1) a = l ++ [a] := by
  intro l
  induction l with
  | nil => intro _; rfl
  | cons b l ih =>
    intro h
    rw [List.orderedInsert_cons, if_neg (not_le.mpr (h b (by simp))), ih (fun c hc => h c (by simp [hc]))]
    rfl

theorem sort_falling {x y : List ℚ} (h : Falling x) (hl : x.length = y.length) :
    (x.zip y).insertionSort (fun p q => p.1 ≤ q.1) = x.reverse.zip y.reverse := by
  have e : (x.zip y).insertionSort (fun p q => p.1 ≤ q.1) = (x.zip y).reverse := by
    clear hl
    induction x generalizing y with
    | nil => simp
    | cons a x ih =>
      cases y with
      | nil => simp
      | cons b y =>
        unfold Falling at h
        rw [List.pairwise_cons] at h
        rw [List.zip_cons_cons, List.insertionSort_cons, ih h.2, insert_last, List.reverse_cons]
        rintro ⟨p, q⟩ hp
        rw [List.mem_reverse] at hp
        exact h.1 p (List.of_mem_zip hp).1
  rw [e]
  apply List.ext_getElem
  · simp
  · intro i a b
    simp only [List.getElem_reverse, List.getElem_zip, List.length_zip]
    simp [hl]

theorem zip_pair {x y : List ℚ} {i : Nat} (h : i < x.length) (hl : x.length = y.length) :
    (x.zip y).getD i (0, 0) = (x.getD i 0, y.getD i 0) := by
  rw [getD_at h, getD_at (hl ▸ h), List.getD_eq_getElem?_getD, List.getElem?_eq_getElem (by simp; omega)]
  simp

/-- Interpolation in an increasing list stays on the polygon. -/
theorem interp_growing {x y : List ℚ} (h : Growing x) (hl : x.length = y.length) (h2 : 2 ≤ x.length) (v : ℚ)
    (h3 : ∃ r ∈ x, r ≤ v) (h4 : ∃ r ∈ x, v ≤ r) : OnPolygon x y v (interp1d x y v) := by
  obtain ⟨c1, c2⟩ := countP_growing h hl v
  have key : ∃ i, 1 ≤ i ∧ i < x.length ∧ min (max ((x.zip y).countP fun p => p.1 < v) 1) ((x.zip y).length - 1) = i ∧
      x.getD (i - 1) 0 ≤ v ∧ v ≤ x.getD i 0 := by
    have lz : (x.zip y).length = x.length := by simp [hl]
    rw [lz]
    generalize (x.zip y).countP (fun p => p.1 < v) = c at c1 c2
    obtain ⟨r, r1, r2⟩ := h3
    obtain ⟨r', r1', r2'⟩ := h4
    obtain ⟨j, hj, rfl⟩ := List.getElem_of_mem r1
    obtain ⟨j', hj', rfl⟩ := List.getElem_of_mem r1'
    rw [← getD_at hj] at r2
    rw [← getD_at hj'] at r2'
    have cn : c < x.length := by
      by_contra hc
      have := (c2 j' hj').mp (by omega)
      linarith
    by_cases c0 : c = 0
    · subst c0
      refine ⟨1, le_refl _, by omega, by omega, ?_, ?_⟩
      · exact (h.le (Nat.zero_le j) hj).trans r2
      · by_contra hv
        have := (c2 1 (by omega)).mpr (not_le.mp hv)
        omega
    · refine ⟨c, by omega, cn, by omega, ?_, ?_⟩
      · exact ((c2 (c - 1) (by omega)).mp (by omega)).le
      · by_contra hv
        have := (c2 c cn).mpr (not_le.mp hv)
        omega
  obtain ⟨i, i1, i2, i3, i4, i5⟩ := key
  have hd : 0 < x.getD i 0 - x.getD (i - 1) 0 := by
    have := h.lt (show i - 1 < i by omega) i2; linarith
  unfold interp1d
  simp only
  rw [sort_growing h, i3, zip_pair (show i - 1 < x.length by omega) hl, zip_pair i2 hl]
  simp only
  refine ⟨i - 1, (v - x.getD (i - 1) 0) / (x.getD i 0 - x.getD (i - 1) 0), by omega, by omega, ?_, ?_, ?_, ?_⟩
  · exact div_nonneg (by linarith) hd.le
  · rw [div_le_one hd]; linarith
  · rw [Nat.sub_add_cancel i1]
    generalize x.getD i 0 = a at *
    generalize x.getD (i - 1) 0 = b at *
    field_simp
    ring
  · rw [Nat.sub_add_cancel i1]
    generalize x.getD i 0 = a at *
    generalize x.getD (i - 1) 0 = b at *
    field_simp
    ring

theorem polygon_reverse {x y : List ℚ} (hl : x.length = y.length) {r s : ℚ} (h : OnPolygon x.reverse y.reverse r s) :
    OnPolygon x y r s := by
  obtain ⟨i, w, h1, h2, w0, w1, e1, e2⟩ := h
  rw [List.length_reverse] at h1 h2
  have rv : ∀ (l : List ℚ) (j : Nat), j < l.length → l.reverse.getD j 0 = l.getD (l.length - 1 - j) 0 := by
    intro l j hj
    rw [getD_at (by simpa using hj), getD_at (by omega), List.getElem_reverse]
  rw [rv x i (by omega), rv x (i + 1) h1] at e1
  rw [rv y i (by omega), rv y (i + 1) h2] at e2
  refine ⟨x.length - 1 - (i + 1), 1 - w, by omega, by omega, by linarith, by linarith, ?_, ?_⟩
  · rw [show x.length - 1 - (i + 1) + 1 = x.length - 1 - i by omega, e1]; ring
  · rw [hl, show y.length - 1 - (i + 1) + 1 = y.length - 1 - i by omega, e2]; ring

theorem reverse_falling {x : List ℚ} (h : Falling x) : Growing x.reverse := by
  unfold Growing
  rw [List.pairwise_reverse]
  exact h

theorem interp_falling {x y : List ℚ} (h : Falling x) (hl : x.length = y.length) (h2 : 2 ≤ x.length) (v : ℚ)
    (h3 : ∃ r ∈ x, r ≤ v) (h4 : ∃ r ∈ x, v ≤ r) : OnPolygon x y v (interp1d x y v) := by
  apply polygon_reverse hl
  have e : interp1d x y v = interp1d x.reverse y.reverse v := by
    unfold interp1d
    rw [sort_falling h hl, sort_growing (reverse_falling h)]
  rw [e]
  exact interp_growing (reverse_falling h) (by simp [hl]) (by simpa using h2) v (by simpa using h3) (by simpa using h4)

/-- On an increasing polygon the greater radius has the later time. -/
theorem polygon_growing {x t : List ℚ} (hx : Growing x) (ht : Growing t) {r s r' s' : ℚ}
    (h : OnPolygon x t r s) (h' : OnPolygon x t r' s') (hr : r < r') : s < s' := by
  obtain ⟨i, w, i1, i2, w0, w1, rfl, rfl⟩ := h
  obtain ⟨j, u, j1, j2, u0, u1, rfl, rfl⟩ := h'
  have xi := hx.lt (Nat.lt_succ_self i) i1
  have ti := ht.lt (Nat.lt_succ_self i) i2
  have xj := hx.lt (Nat.lt_succ_self j) j1
  have tj := ht.lt (Nat.lt_succ_self j) j2
  rcases lt_trichotomy i j with hij | rfl | hij
  · have xm := hx.le (show i + 1 ≤ j from hij) (by omega)
    have tm := ht.le (show i + 1 ≤ j from hij) (by omega)
    by_contra hs
    rw [not_lt] at hs
    have a1 : 0 ≤ (1 - w) * (t.getD (i + 1) 0 - t.getD i 0) := mul_nonneg (by linarith) (by linarith)
    have a2 : 0 ≤ u * (t.getD (j + 1) 0 - t.getD j 0) := mul_nonneg u0 (by linarith)
    have b1 : (1 - w) * (t.getD (i + 1) 0 - t.getD i 0) = 0 := by linarith
    have b2 : u * (t.getD (j + 1) 0 - t.getD j 0) = 0 := by linarith
    have b3 : t.getD (i + 1) 0 = t.getD j 0 := by linarith
    have c1 : 1 - w = 0 := by
      rcases mul_eq_zero.mp b1 with h | h
      · exact h
      · linarith
    have c2 : u = 0 := by
      rcases mul_eq_zero.mp b2 with h | h
      · exact h
      · linarith
    have c3 : i + 1 = j := by
      by_contra hne
      have := ht.lt (show i + 1 < j by omega) (by omega)
      linarith
    subst c3
    rw [c1, c2] at hr
    have : w = 1 := by linarith
    rw [this] at hr
    linarith
  · have : w < u := by
      by_contra hc
      have := mul_nonneg (sub_nonneg.mpr (not_lt.mp hc)) (show 0 ≤ x.getD (i + 1) 0 - x.getD i 0 by linarith)
      linarith
    have := mul_pos (sub_pos.mpr this) (show 0 < t.getD (i + 1) 0 - t.getD i 0 by linarith)
    linarith
  · have xm := hx.le (show j + 1 ≤ i from hij) (by omega)
    have a1 : 0 ≤ w * (x.getD (i + 1) 0 - x.getD i 0) := mul_nonneg w0 (by linarith)
    have a2 : 0 ≤ (1 - u) * (x.getD (j + 1) 0 - x.getD j 0) := mul_nonneg (by linarith) (by linarith)
    linarith

/-- On a decreasing polygon the greater radius has the earlier time. -/
theorem polygon_falling {x t : List ℚ} (hx : Falling x) (ht : Growing t) {r s r' s' : ℚ}
    (h : OnPolygon x t r s) (h' : OnPolygon x t r' s') (hr : r < r') : s' < s := by
  have neg : ∀ {r s : ℚ}, OnPolygon x t r s → OnPolygon (x.map (- ·)) t (-r) s := by
    rintro r s ⟨i, w, i1, i2, w0, w1, e1, e2⟩
    refine ⟨i, w, by simpa using i1, i2, w0, w1, ?_, e2⟩
    have g : ∀ j, j < x.length → (x.map (- ·)).getD j 0 = - x.getD j 0 := by
      intro j hj
      rw [getD_at (by simpa using hj), getD_at hj, List.getElem_map]
    rw [g i (by omega), g (i + 1) i1, e1]
    ring
  have hg : Growing (x.map (- ·)) := by
    unfold Growing
    rw [List.pairwise_map]
    exact hx.imp (fun h => neg_lt_neg h)
  exact polygon_growing hg ht (neg h') (neg h) (neg_lt_neg hr)

theorem rows_growing {idx : List Nat} {l : List ℚ} (h : Growing l) (hi : idx.Pairwise (· < ·)) (hb : ∀ i ∈ idx, i < l.length) :
    Growing (rows idx l) := by
  unfold Growing rows
  rw [List.pairwise_map]
  exact (List.Pairwise.and_mem.mp hi).imp (fun {i j} hij => h.lt hij.2.2 (hb j hij.2.1))

theorem rows_falling {idx : List Nat} {l : List ℚ} (h : Falling l) (hi : idx.Pairwise (· < ·)) (hb : ∀ i ∈ idx, i < l.length) :
    Falling (rows idx l) := by
  unfold Falling rows
  rw [List.pairwise_map]
  refine (List.Pairwise.and_mem.mp hi).imp (fun {i j} hij => ?_)
  have hj := hb j hij.2.1
  have hi := hb i hij.1
  rw [getD_at hj, getD_at hi]
  exact List.pairwise_iff_getElem.mp h i j hi hj hij.2.2

/-- Regions on an increasing polygon. -/
theorem ordered_growing {x t : List ℚ} {f : ℚ → ℚ} {km : List (ℚ × ℚ)} (hx : Growing x) (ht : Growing t) (ho : Ordered km)
    (hp : ∀ g ∈ km, OnPolygon x t g.1 (f g.1) ∧ OnPolygon x t g.2 (f g.2)) : Ordered (km.map fun g => (f g.1, f g.2)) := by
  refine ⟨?_, ?_⟩
  · intro s hs
    obtain ⟨g, hg, rfl⟩ := List.mem_map.mp hs
    exact polygon_growing hx ht (hp g hg).1 (hp g hg).2 (ho.1 g hg)
  · rw [List.pairwise_map]
    refine (List.Pairwise.and_mem.mp ho.2).imp (fun {g h} hgh => ?_)
    exact ⟨polygon_growing hx ht (hp g hgh.1).1 (hp h hgh.2.1).1 hgh.2.2.1,
      polygon_growing hx ht (hp g hgh.1).2 (hp h hgh.2.1).2 hgh.2.2.2⟩

/-- Regions on a decreasing polygon. -/
theorem ordered_falling {x t : List ℚ} {f : ℚ → ℚ} {km : List (ℚ × ℚ)} (hx : Falling x) (ht : Growing t) (ho : Ordered km)
    (hp : ∀ g ∈ km, OnPolygon x t g.1 (f g.1) ∧ OnPolygon x t g.2 (f g.2)) :
    Ordered (reverseGaps (km.map fun g => (f g.1, f g.2))) := by
  unfold reverseGaps
  rw [List.map_map]
  refine ⟨?_, ?_⟩
  · intro s hs
    rw [List.mem_reverse] at hs
    obtain ⟨g, hg, rfl⟩ := List.mem_map.mp hs
    exact polygon_falling hx ht (hp g hg).1 (hp g hg).2 (ho.1 g hg)
  · rw [List.pairwise_reverse, List.pairwise_map]
    refine (List.Pairwise.and_mem.mp ho.2).imp (fun {g h} hgh => ?_)
    exact ⟨polygon_falling hx ht (hp g hgh.1).2 (hp h hgh.2.1).2 hgh.2.2.2,
      polygon_falling hx ht (hp g hgh.1).1 (hp h hgh.2.1).1 hgh.2.2.1⟩

theorem forall₂_map {α : Type} {P : ℚ × ℚ → α → Prop} {f : ℚ × ℚ → α} : ∀ {km : List (ℚ × ℚ)}, (∀ g ∈ km, P g (f g)) →
    List.Forall₂ P km (km.map f) := by
  intro km
  induction km with
  | nil => intro _; exact List.Forall₂.nil
  | cons g km ih => intro h; exact List.Forall₂.cons (h g (by simp)) (ih (fun g hg => h g (by simp [hg])))

theorem rows_length (idx : List Nat) (l : List ℚ) : (rows idx l).length = idx.length := by unfold rows; simp

theorem two_free {idx : List Nat} {i j : Nat} (hi : i ∈ idx) (hj : j ∈ idx) (h : i ≠ j) : 2 ≤ idx.length := by
  match idx, hi, hj with
  | [a], hi, hj => simp at hi hj; omega
  | _ :: _ :: _, _, _ => simp

/-- **C88** (partial) For every occultation in which the radius only grows or only falls, with at least two times that are not
blocked: the regions are those of the rows that are not blocked, in order of the radius and in order of the time, and each end
of a region in time is where the polygon through these rows has the radius of the corresponding end.  Missing: chord
occultations, see the theorems below. -/
theorem C88_radial_partial (cosd : ℚ → ℚ) (hc : ∀ x, -1 ≤ cosd x ∧ cosd x ≤ 1) (startJd : ℚ) (ret rho phi oet atmos : List ℚ)
    (h1 : ret.length = rho.length) (h2 : phi.length = rho.length) (h3 : oet.length = rho.length) (ht : Growing oet)
    (hr : Growing rho ∨ Falling rho)
    (hfree : ∃ i j, i < j ∧ j < oet.length ∧ oet.getD i 0 ∉ atmos ∧ oet.getD j 0 ∉ atmos) :
    ∃ fs idx, getFreespace cosd startJd ret rho phi oet atmos none = .ok fs ∧ idx.Pairwise (· < ·) ∧
      (∀ i, i ∈ idx ↔ i < oet.length ∧ oet.getD i 0 ∉ atmos) ∧
      getFreespaceKm cosd startJd (rows idx ret) (rows idx rho) (rows idx phi) = .ok fs.km ∧ Ordered fs.km ∧ Ordered fs.spm ∧
      (Growing rho → List.Forall₂ (fun g s => OnPolygon (rows idx rho) (rows idx oet) g.1 s.1 ∧
        OnPolygon (rows idx rho) (rows idx oet) g.2 s.2) fs.km fs.spm) ∧
      (Falling rho → List.Forall₂ (fun g s => OnPolygon (rows idx rho) (rows idx oet) g.1 s.2 ∧
        OnPolygon (rows idx rho) (rows idx oet) g.2 s.1) fs.km fs.spm.reverse) := by
  obtain ⟨idx, e, p, mem⟩ := C84_blocked_partial oet atmos ret phi rho (by omega) (by omega) (by omega)
  obtain ⟨i, j, hij, hj, fi, fj⟩ := hfree
  have two : 2 ≤ idx.length := two_free ((mem i).mpr ⟨by omega, fi⟩) ((mem j).mpr ⟨hj, fj⟩) (by omega)
  have bnd : ∀ i ∈ idx, i < rho.length := fun i hi => by have := ((mem i).mp hi).1; omega
  have ht' := rows_growing ht p (fun i hi => by have := bnd i hi; omega)
  have lr := rows_length idx rho
  have lo := rows_length idx oet
  obtain ⟨km, ek, ok, kin, -⟩ := C87_regions cosd hc startJd (rows idx ret) (rows idx rho) (rows idx phi)
    (by intro h; rw [h] at lr; simp at lr; omega) (by rw [rows_length, lr]) (by rw [rows_length, lr])
  have outer : ∀ g ∈ km, (∃ r ∈ rows idx rho, g.1 ≤ r) ∧ ∃ r ∈ rows idx rho, r ≤ g.2 := by
    intro g hg
    obtain ⟨⟨r, r1, r2⟩, ⟨r', r1', r2'⟩⟩ := kin g hg
    have := ok.1 g hg
    exact ⟨⟨r', r1', by linarith⟩, ⟨r, r1, by linarith⟩⟩
  have run : getFreespace cosd startJd ret rho phi oet atmos none = .ok ⟨km, [],
      if (rows idx rho).getD 1 0 - (rows idx rho).getD 0 0 < 0 then
        reverseGaps (km.map fun g => (interp1d (rows idx rho) (rows idx oet) g.1, interp1d (rows idx rho) (rows idx oet) g.2))
      else km.map fun g => (interp1d (rows idx rho) (rows idx oet) g.1, interp1d (rows idx rho) (rows idx oet) g.2)⟩ := by
    unfold getFreespace
    simp only [e, bind, Except.bind]
    rw [if_neg (by omega)]
    simp only [ek]
    rw [if_neg (by omega)]
    rfl
  rcases hr with hg | hf
  · have hg' := rows_growing hg p bnd
    have pol : ∀ g ∈ km, OnPolygon (rows idx rho) (rows idx oet) g.1 (interp1d (rows idx rho) (rows idx oet) g.1) ∧
        OnPolygon (rows idx rho) (rows idx oet) g.2 (interp1d (rows idx rho) (rows idx oet) g.2) := fun g hm =>
      ⟨interp_growing hg' (by omega) (by omega) _ (kin g hm).1 (outer g hm).1,
        interp_growing hg' (by omega) (by omega) _ (outer g hm).2 (kin g hm).2⟩
    have d := hg'.lt (show 0 < 1 by omega) (by omega)
    rw [if_neg (by linarith)] at run
    refine ⟨_, idx, run, p, mem, ek, ok, ordered_growing hg' ht' ok pol, fun _ => forall₂_map pol, fun hf => ?_⟩
    have := rows_falling hf p bnd
    unfold Falling at this
    have := List.pairwise_iff_getElem.mp this 0 1 (by omega) (by omega) (by omega)
    rw [getD_at (by omega), getD_at (by omega)] at d
    exact absurd d (not_lt.mpr this.le)
  · have hf' := rows_falling hf p bnd
    have pol : ∀ g ∈ km, OnPolygon (rows idx rho) (rows idx oet) g.1 (interp1d (rows idx rho) (rows idx oet) g.1) ∧
        OnPolygon (rows idx rho) (rows idx oet) g.2 (interp1d (rows idx rho) (rows idx oet) g.2) := fun g hm =>
      ⟨interp_falling hf' (by omega) (by omega) _ (kin g hm).1 (outer g hm).1,
        interp_falling hf' (by omega) (by omega) _ (outer g hm).2 (kin g hm).2⟩
    have d : (rows idx rho).getD 1 0 < (rows idx rho).getD 0 0 := by
      rw [getD_at (by omega), getD_at (by omega)]
      exact List.pairwise_iff_getElem.mp hf' 0 1 (by omega) (by omega) (by omega)
    rw [if_pos (by linarith)] at run
    refine ⟨_, idx, run, p, mem, ek, ok, ordered_falling hf' ht' ok pol, fun hg => ?_, fun _ => ?_⟩
    · have := (rows_growing hg p bnd).lt (show 0 < 1 by omega) (by omega)
      linarith
    · unfold reverseGaps
      rw [List.reverse_reverse, List.map_map]
      exact forall₂_map pol

/-- An egress from 125000 to 146000 km, 1000 km/s, with a cosine of 0. -/
example : getFreespace (fun _ => 0) 2454467 [0, 0, 0] [125000, 136000, 146000] [0, 0, 0] [0, 11, 21] [] none =
    .ok ⟨[(133500, 133650), (137000, 143000)], [], [(8.5, 8.65), (12, 18)]⟩ := by decide +kernel

example : ∃ fs : Freespace, getFreespace (fun _ => 0) 2454467 [0, 0, 0] [125000, 136000, 146000] [0, 0, 0] [0, 11, 21] [0] none = .ok fs ∧
    Ordered fs.spm := by
  obtain ⟨fs, idx, e, -, -, -, -, o, -⟩ := C88_radial_partial (fun _ => 0) (fun _ => by norm_num) 2454467 [0, 0, 0]
    [125000, 136000, 146000] [0, 0, 0] [0, 11, 21] [0] rfl rfl rfl (by unfold Growing; decide +kernel)
    (Or.inl (by unfold Growing; decide +kernel)) ⟨1, 2, by decide, by decide, by decide +kernel, by decide +kernel⟩
  exact ⟨fs, e, o⟩

theorem polygon_time {x t : List ℚ} (ht : Growing t) {r s : ℚ} (h : OnPolygon x t r s) : (∃ u ∈ t, u ≤ s) ∧ ∃ u ∈ t, s ≤ u := by
  obtain ⟨i, w, i1, i2, w0, w1, rfl, rfl⟩ := h
  have ti := ht.lt (Nat.lt_succ_self i) i2
  have m1 : t.getD i 0 ∈ t := by rw [getD_at (by omega)]; exact List.getElem_mem _
  have m2 : t.getD (i + 1) 0 ∈ t := by rw [getD_at i2]; exact List.getElem_mem _
  have a1 : 0 ≤ (1 - w) * (t.getD (i + 1) 0 - t.getD i 0) := mul_nonneg (by linarith) (by linarith)
  have a2 : 0 ≤ w * (t.getD (i + 1) 0 - t.getD i 0) := mul_nonneg w0 (by linarith)
  exact ⟨⟨_, m1, by linarith⟩, ⟨_, m2, by linarith⟩⟩

/-- **C88** (partial) For every chord occultation that is split where it turns (see C82), with at least two times on either side
that are not blocked: the regions are those of the free rows of the ingress, then of the egress, in order of the time, and each
end of a region in time is where the polygon through these rows has the radius of the corresponding end.  Missing: chords that
are split too late, see `C88_late_false`. -/
theorem C88_chord_partial (cosd : ℚ → ℚ) (hc : ∀ x, -1 ≤ cosd x ∧ cosd x ≤ 1) (startJd : ℚ) (ret rho phi oet atmos : List ℚ)
    (m k : Nat) (c : Chord rho m) (hk : 0 < k) (hfall : Falling (rho.take k)) (hgrow : Growing (rho.drop k))
    (h1 : ret.length = rho.length) (h2 : phi.length = rho.length) (h3 : oet.length = rho.length) (ht : Growing oet)
    (hI : ∃ i j, i < j ∧ j < k ∧ j < oet.length ∧ oet.getD i 0 ∉ atmos ∧ oet.getD j 0 ∉ atmos)
    (hE : ∃ i j, k ≤ i ∧ i < j ∧ j < oet.length ∧ oet.getD i 0 ∉ atmos ∧ oet.getD j 0 ∉ atmos) :
    ∃ fs ing egr sI sE, getFreespace cosd startJd ret rho phi oet atmos (some k) = .ok fs ∧
      (∀ i, i ∈ ing ↔ i < k ∧ i < oet.length ∧ oet.getD i 0 ∉ atmos) ∧
      (∀ i, i ∈ egr ↔ k ≤ i ∧ i < oet.length ∧ oet.getD i 0 ∉ atmos) ∧ (ing ++ egr).Pairwise (· < ·) ∧
      getFreespaceKm cosd startJd (rows ing ret) (rows ing rho) (rows ing phi) = .ok fs.km ∧
      getFreespaceKm cosd startJd (rows egr ret) (rows egr rho) (rows egr phi) = .ok fs.kmEgress ∧
      fs.spm = sI ++ sE ∧ Ordered fs.spm ∧
      List.Forall₂ (fun g s => OnPolygon (rows ing rho) (rows ing oet) g.1 s.2 ∧
        OnPolygon (rows ing rho) (rows ing oet) g.2 s.1) fs.km sI.reverse ∧
      List.Forall₂ (fun g s => OnPolygon (rows egr rho) (rows egr oet) g.1 s.1 ∧
        OnPolygon (rows egr rho) (rows egr oet) g.2 s.2) fs.kmEgress sE := by
  obtain ⟨ing, egr, eI, eE, p, mI, mE⟩ := C84_split ret oet atmos phi rho m k c h1 h2 h3
  rw [List.pairwise_append] at p
  obtain ⟨pI, pE, pIE⟩ := p
  obtain ⟨i, j, hij, hjk, hj, fi, fj⟩ := hI
  obtain ⟨i', j', hik', hij', hj', fi', fj'⟩ := hE
  have twoI : 2 ≤ ing.length := two_free ((mI i).mpr ⟨by omega, by omega, fi⟩) ((mI j).mpr ⟨hjk, hj, fj⟩) (by omega)
  have twoE : 2 ≤ egr.length := two_free ((mE i').mpr ⟨hik', by omega, fi'⟩) ((mE j').mpr ⟨by omega, hj', fj'⟩) (by omega)
  have bI : ∀ i ∈ ing, i < oet.length := fun i hi => ((mI i).mp hi).2.1
  have bE : ∀ i ∈ egr, i < oet.length := fun i hi => ((mE i).mp hi).2.1
  have tI := rows_growing ht pI bI
  have tE := rows_growing ht pE bE
  have fI : Falling (rows ing rho) := by
    have lt : ∀ i ∈ ing, i < k := fun i hi => ((mI i).mp hi).1
    rw [← rows_take ing rho k lt]
    exact rows_falling hfall pI (fun i hi => by have := bI i hi; have := lt i hi; simp; omega)
  have gE : Growing (rows egr rho) := by
    have ge : ∀ i ∈ egr, k ≤ i := fun i hi => ((mE i).mp hi).1
    have e : rows egr rho = rows (egr.map (· - k)) (rho.drop k) := by
      rw [rows_drop, List.map_map]
      congr 1
      symm
      rw [List.map_congr_left (g := id), List.map_id]
      intro i hi
      have := ge i hi
      simp; omega
    rw [e]
    apply rows_growing hgrow
    · rw [List.pairwise_map]
      exact (List.Pairwise.and_mem.mp pE).imp (fun {i j} hij => by have := ge i hij.1; have := ge j hij.2.1; have := hij.2.2; omega)
    · intro i hi
      obtain ⟨a, ha, rfl⟩ := List.mem_map.mp hi
      have := bE a ha
      have := ge a ha
      simp; omega
  have lI := rows_length ing rho
  have lI' := rows_length ing oet
  have lE := rows_length egr rho
  have lE' := rows_length egr oet
  obtain ⟨kmI, ekI, okI, kinI, -⟩ := C87_regions cosd hc startJd (rows ing ret) (rows ing rho) (rows ing phi)
    (by intro h; rw [h] at lI; simp at lI; omega) (by rw [rows_length, lI]) (by rw [rows_length, lI])
  obtain ⟨kmE, ekE, okE, kinE, -⟩ := C87_regions cosd hc startJd (rows egr ret) (rows egr rho) (rows egr phi)
    (by intro h; rw [h] at lE; simp at lE; omega) (by rw [rows_length, lE]) (by rw [rows_length, lE])
  have polI : ∀ g ∈ kmI, OnPolygon (rows ing rho) (rows ing oet) g.1 (interp1d (rows ing rho) (rows ing oet) g.1) ∧
      OnPolygon (rows ing rho) (rows ing oet) g.2 (interp1d (rows ing rho) (rows ing oet) g.2) := by
    intro g hg
    obtain ⟨⟨r, r1, r2⟩, ⟨r', r1', r2'⟩⟩ := kinI g hg
    have := okI.1 g hg
    exact ⟨interp_falling fI (by omega) (by omega) _ ⟨r, r1, r2⟩ ⟨r', r1', by linarith⟩,
      interp_falling fI (by omega) (by omega) _ ⟨r, r1, by linarith⟩ ⟨r', r1', r2'⟩⟩
  have polE : ∀ g ∈ kmE, OnPolygon (rows egr rho) (rows egr oet) g.1 (interp1d (rows egr rho) (rows egr oet) g.1) ∧
      OnPolygon (rows egr rho) (rows egr oet) g.2 (interp1d (rows egr rho) (rows egr oet) g.2) := by
    intro g hg
    obtain ⟨⟨r, r1, r2⟩, ⟨r', r1', r2'⟩⟩ := kinE g hg
    have := okE.1 g hg
    exact ⟨interp_growing gE (by omega) (by omega) _ ⟨r, r1, r2⟩ ⟨r', r1', by linarith⟩,
      interp_growing gE (by omega) (by omega) _ ⟨r, r1, by linarith⟩ ⟨r', r1', r2'⟩⟩
  have oI := ordered_falling fI tI okI polI
  have oE := ordered_growing gE tE okE polE
  have before : ∀ s ∈ reverseGaps (kmI.map fun g => (interp1d (rows ing rho) (rows ing oet) g.1, interp1d (rows ing rho) (rows ing oet) g.2)),
      ∀ s' ∈ kmE.map (fun g => (interp1d (rows egr rho) (rows egr oet) g.1, interp1d (rows egr rho) (rows egr oet) g.2)), s.2 < s'.1 := by
    intro s hs s' hs'
    unfold reverseGaps at hs
    rw [List.map_map, List.mem_reverse] at hs
    obtain ⟨g, hg, rfl⟩ := List.mem_map.mp hs
    obtain ⟨g', hg', rfl⟩ := List.mem_map.mp hs'
    obtain ⟨-, u, hu, u1⟩ := polygon_time tI (polI g hg).1
    obtain ⟨⟨u', hu', u1'⟩, -⟩ := polygon_time tE (polE g' hg').1
    unfold rows at hu hu'
    obtain ⟨a, ha, rfl⟩ := List.mem_map.mp hu
    obtain ⟨b, hb, rfl⟩ := List.mem_map.mp hu'
    have := ht.lt (pIE a ha b hb) (bE b hb)
    show interp1d (rows ing rho) (rows ing oet) g.1 < interp1d (rows egr rho) (rows egr oet) g'.1
    exact lt_of_le_of_lt u1 (lt_of_lt_of_le this u1')
  obtain ⟨k', rfl⟩ : ∃ k', k = k' + 1 := ⟨k - 1, by omega⟩
  have run : getFreespace cosd startJd ret rho phi oet atmos (some (k' + 1)) = .ok ⟨kmI, kmE,
      reverseGaps (kmI.map fun g => (interp1d (rows ing rho) (rows ing oet) g.1, interp1d (rows ing rho) (rows ing oet) g.2)) ++
      kmE.map fun g => (interp1d (rows egr rho) (rows egr oet) g.1, interp1d (rows egr rho) (rows egr oet) g.2)⟩ := by
    unfold getFreespace
    simp only [eI, bind, Except.bind, ekI, eE, ekE]
    generalize reverseGaps _ = sI at before oI
    generalize kmE.map (fun g => (interp1d (rows egr rho) (rows egr oet) g.1, interp1d (rows egr rho) (rows egr oet) g.2)) = sE at before oE
    cases sE with
    | nil => rfl
    | cons e sE =>
      cases sI with
      | nil => rfl
      | cons s sI =>
        have a := before s (by simp) e (by simp)
        have b := oI.1 s (by simp)
        simp only
        rw [if_neg (by linarith)]
        rfl
  refine ⟨_, ing, egr, _, _, run, mI, mE, ?_, ekI, ekE, rfl, ?_, ?_, ?_⟩
  · rw [List.pairwise_append]; exact ⟨pI, pE, pIE⟩
  · refine ⟨?_, ?_⟩
    · intro s hs
      rcases List.mem_append.mp hs with hs | hs
      · exact oI.1 s hs
      · exact oE.1 s hs
    · rw [List.pairwise_append]
      refine ⟨oI.2, oE.2, ?_⟩
      intro s hs s' hs'
      have a := before s hs s' hs'
      have b := oI.1 s hs
      have d := oE.1 s' hs'
      constructor <;> linarith
  · unfold reverseGaps
    rw [List.reverse_reverse, List.map_map]
    exact forall₂_map polI
  · exact forall₂_map polE

/-- A chord from 145000 km to 135500 km and back, split at its least radius. -/
example : getFreespace (fun _ => 0) 2454467 [0, 0, 0, 0] [145000, 135500, 136500, 146500] [0, 0, 0, 0] [0, 19, 20, 30] [] (some 2) =
    .ok ⟨[(137000, 143000)], [(137000, 143000)], [(4, 16), (20.5, 26.5)]⟩ := by decide +kernel

example : ∃ fs : Freespace, getFreespace (fun _ => 0) 2454467 [0, 0, 0, 0] [145000, 135500, 136500, 146500] [0, 0, 0, 0]
    [0, 19, 20, 30] [] (some 2) = .ok fs ∧ Ordered fs.spm := by
  obtain ⟨fs, ing, egr, sI, sE, e, -, -, -, -, -, -, o, -⟩ := C88_chord_partial (fun _ => 0) (fun _ => by norm_num) 2454467
    [0, 0, 0, 0] [145000, 135500, 136500, 146500] [0, 0, 0, 0] [0, 19, 20, 30] [] 1 2
    ⟨by decide, by
      intro i hi
      have : i = 0 := by omega
      subst this
      decide +kernel, by
      intro i hi hj
      have : i = 1 ∨ i = 2 := by simp at hj; omega
      rcases this with rfl | rfl <;> decide +kernel⟩
    (by decide) (by unfold Falling; decide +kernel) (by unfold Growing; decide +kernel) rfl rfl rfl (by unfold Growing; decide +kernel)
    ⟨0, 1, by decide, by decide, by decide, by decide, by decide⟩ ⟨2, 3, by decide, by decide, by decide, by decide, by decide⟩
  exact ⟨fs, e, o⟩

/-- **C88** is false of chords that are split too late (C82): the row of the egress among those of the ingress puts the regions
next to the least radius at wrong times.  Here a region ends before it begins. -/
theorem C88_late_false : ∃ (g : Geom) (fs : Freespace), Chord g.rho 2 ∧ g.rhoDot = gradient g.rho 1 ∧ Growing g.spm ∧ g.atmos = [] ∧
    initFreespace (fun _ => 0) 2454467 g [0, 1, 2, 3, 4, 5] [0, 0, 0, 0, 0, 0] = .ok fs ∧ ∃ s ∈ fs.spm, s.2 < s.1 := by
  refine ⟨⟨[76000, 75000, 60000, 70000, 71000, 77000], gradient [76000, 75000, 60000, 70000, 71000, 77000] 1,
    [0, 1, 2, 3, 4, 5], [], []⟩, ⟨[(60000, 72000)], [(71000, 72000)], [(11 / 5, 2), (4, 25 / 6)]⟩, ?_, rfl, ?_, rfl, ?_, ?_⟩
  · refine ⟨by decide, ?_, ?_⟩
    · intro i hi
      have : i = 0 ∨ i = 1 := by omega
      rcases this with rfl | rfl <;> decide +kernel
    · intro i hi hj
      have : i = 2 ∨ i = 3 ∨ i = 4 := by simp at hj; omega
      rcases this with rfl | rfl | rfl <;> decide +kernel
  · unfold Growing; decide +kernel
  · decide +kernel
  · exact ⟨(11 / 5, 2), by simp, by norm_num⟩

end Verif.Geo
