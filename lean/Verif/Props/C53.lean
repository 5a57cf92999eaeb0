import Verif.Proofs.Models
import Verif.Props.C34

/-!
# C53 - C56: synthetic profiles
-/
namespace Verif

/-! ### Specification -/

/-- The ideal profile of an edge: `below` for smaller radii, `above` from the edge on. -/
def Spec.edge (below above : Cpx) (c : Dbl) (r : List Dbl) : List Cpx :=
  r.map fun x => if x.lt c then below else above

/-- Radii in non-decreasing order. -/
def Spec.Nondecreasing (r : List Dbl) : Prop := r.Pairwise fun a b => a.le b = true

/-- The arrays that the reconstruction needs. -/
def Spec.CoreArrays (t : TauD) : Prop :=
  ∀ f ∈ [Fld.rho, .F, .phi, .k, .rhoDot, .B, .D, .w, .rx, .ry, .rz], t.arr f ≠ none

open Spec

theorem coreThere_of {t : TauD} (h : CoreArrays t) (h1 : t.carr .tIn ≠ none) (h2 : t.carr .tOut ≠ none) :
    CoreThere t where
  tIn := h1
  tOut := h2
  rho := h _ (by decide)
  F := h _ (by decide)
  phi := h _ (by decide)
  k := h _ (by decide)
  rhoDot := h _ (by decide)
  B := h _ (by decide)
  D := h _ (by decide)
  w := h _ (by decide)
  rx := h _ (by decide)
  ry := h _ (by decide)
  rz := h _ (by decide)

theorem ascending_get {r : List Dbl} (h : Nondecreasing r) {i j : Nat} {a b : Dbl} (hij : i < j) (ha : r[i]? = some a)
    (hb : r[j]? = some b) : a.le b = true := by
  obtain ⟨h1, rfl⟩ := List.getElem?_eq_some_iff.1 ha
  obtain ⟨h2, rfl⟩ := List.getElem?_eq_some_iff.1 hb
  exact List.pairwise_iff_getElem.1 h i j h1 h2 hij

theorem Dbl.lt_of_le_of_ne {a b : Dbl} (h : a.le b = true) (hn : a.eq b = false) : a.lt b = true := by
  cases a <;> cases b <;> simp_all [Dbl.le, Dbl.lt, Dbl.eq]

/-- The profile that is computed is the ideal one, unless the edge is the last radius. -/
theorem edge_ideal (below above : Cpx) (c : Dbl) {t : TauD} {r : List Dbl} {l : List Cpx}
    (hr : t.arr .rho = some r) (hl : t.carr .tIn = some l) (hn : r.length = t.arrSize) (hm : l.length = t.arrSize)
    (h0 : t.arrSize ≠ 0) (ha : Nondecreasing r) {first last : Dbl} (hf : r[0]? = some first)
    (hz : r[t.arrSize - 1]? = some last) (he : last.eq c = false ∨ c.le first = true) :
    edgeProfile below above c t = .ok (t.setC .tIn (some (edge below above c r)), c.le first || last.le c) := by
  obtain ⟨l', b, e, hl', first', last', hf', hz', h⟩ := edgeProfile_ok below above c hr hl hn hm h0
  rw [hf] at hf'; rw [hz] at hz'
  cases hf'; cases hz'
  have key : ∀ (i : Nat) (x : Dbl), r[i]? = some x → l'[i]? = some (if x.lt c then below else above) := by
    intro i x hx
    have hi : i < t.arrSize := by
      have := (List.getElem?_eq_some_iff.1 hx).1; omega
    have h1 : i = 0 ∧ x = first ∨ first.le x = true := by
      rcases Nat.eq_zero_or_pos i with rfl | h
      · left; rw [hf] at hx; cases hx; exact ⟨rfl, rfl⟩
      · right; exact ascending_get ha h hf hx
    have h2 : i = t.arrSize - 1 ∧ x = last ∨ x.le last = true := by
      rcases Nat.lt_or_ge i (t.arrSize - 1) with h | h
      · right; exact ascending_get ha h hx hz
      · left
        have : i = t.arrSize - 1 := by omega
        subst this
        rw [hz] at hx; cases hx; exact ⟨rfl, rfl⟩
    rcases h with ⟨hc, -, hv⟩ | ⟨hc, hc', -, hv⟩ | ⟨-, -, -, m, hm', ⟨y, hy, hyc⟩, hb, hv⟩
    · rw [hv i hi, if_neg]
      rw [Bool.not_eq_true]
      rcases h1 with ⟨-, rfl⟩ | h1
      · exact Dbl.not_lt_of_le hc
      · exact Dbl.not_lt_of_le (Dbl.le_trans hc h1)
    · have he' : last.eq c = false := by
        rcases he with h | h
        · exact h
        · rw [hc] at h; cases h
      have hlt := Dbl.lt_of_le_of_ne hc' he'
      rw [hv i hi, if_pos]
      rcases h2 with ⟨-, rfl⟩ | h2
      · exact hlt
      · exact Dbl.lt_of_le_of_lt h2 hlt
    · rw [hv i hi]
      rcases Nat.lt_trichotomy i m with h | h | h
      · rw [if_pos h, if_pos (hb i x h hx)]
      · subst h
        rw [hx] at hy; cases hy
        rw [if_neg (by omega), if_neg (by rw [hyc]; simp)]
      · rw [if_neg (by omega), if_neg]
        rw [Bool.not_eq_true]
        cases hh : x.lt c
        · rfl
        · rw [Dbl.lt_of_le_of_lt (ascending_get ha h hy hx) hh] at hyc; cases hyc
  have hll : l' = edge below above c r := by
    apply List.ext_getElem?
    intro i
    unfold edge
    rw [List.getElem?_map]
    cases hx : r[i]? with
    | none =>
      have := List.getElem?_eq_none_iff.1 hx
      rw [List.getElem?_eq_none (by omega)]; rfl
    | some x => rw [key i x hx]; rfl
  rw [e, hll]
  congr 2
  rcases h with ⟨hc, hb, -⟩ | ⟨hc, hc', hb, -⟩ | ⟨hc, hc', hb, -⟩
  · rw [hb, hc]; rfl
  · rw [hb, hc, hc']; rfl
  · rw [hb, hc, hc']; rfl

/-! ### C53, C54 -/

/-- **C53** (partial) For ascending radii and an edge that is not the last radius, the function works with the ideal
profile: if the edge is outside the data, `T_in` is the ideal profile at the end (and nothing but `T_in` and
`T_out` has changed); otherwise the diffraction of the ideal profile is computed (see `C53_result`).
Missing: an edge at the last radius (`C53_last_false`). -/
theorem C53_left_partial (N : Num Dbl Cpx) (L : Lib) (sem : Sem) (Z : FFT) (E : Env) (A : ModelMem) (p : ModelParams)
    {t : TauD} (herr : t.err = none) (hk : p.kind = .leftEdge) (hA : A.out = true) (hc : CoreArrays t)
    {r : List Dbl} {l : List Cpx} (hr : t.arr .rho = some r) (hl : t.carr .tIn = some l)
    (hn : r.length = t.arrSize) (hm : l.length = t.arrSize) (h0 : t.arrSize ≠ 0) (ha : Nondecreasing r)
    {first last : Dbl} (hf : r[0]? = some first) (hz : r[t.arrSize - 1]? = some last)
    (he : last.eq p.center = false ∨ p.center.le first = true) :
    ∃ t1 : TauD, t1 = (t.setC .tOut (some ((List.range t.arrSize).map E.junk))).setC .tIn
        (some (edge (N.rect p.peak (N.lit 0)) N.czero p.center r)) ∧
      ((p.center.le first = true ∨ last.le p.center = true) →
        modelLeft N L sem Z E A (some p) t = .ok t1) ∧
      (p.center.le first = false → last.le p.center = false →
        modelLeft N L sem Z E A (some p) t = roundTrip N L sem Z E A .modelLeft 101 129 t1) := by
  refine ⟨_, rfl, ?_⟩
  have hcore := coreThere_of (t := t.setC .tOut (some ((List.range t.arrSize).map E.junk))) hc
    (by simp [Tau.setC, hl]) (by simp [Tau.setC])
  have e1 : checkCoreData (t.setC .tOut (some ((List.range t.arrSize).map E.junk))) =
      .ok (t.setC .tOut (some ((List.range t.arrSize).map E.junk))) := by
    rcases checkCoreData_cases (t := t.setC .tOut (some ((List.range t.arrSize).map E.junk))) herr with h | h
    · exact h.2
    · exact absurd hcore h.1
  have e2 := edge_ideal (N.rect p.peak (N.lit 0)) N.czero p.center
    (t := t.setC .tOut (some ((List.range t.arrSize).map E.junk))) (r := r) (l := l) hr (by simp [Tau.setC, hl])
    hn hm h0 ha hf hz he
  have main : modelLeft N L sem Z E A (some p) t = if (p.center.le first || last.le p.center) = true then
      .ok ((t.setC .tOut (some ((List.range t.arrSize).map E.junk))).setC .tIn
        (some (edge (N.rect p.peak (N.lit 0)) N.czero p.center r)))
      else roundTrip N L sem Z E A .modelLeft 101 129 ((t.setC .tOut (some ((List.range t.arrSize).map E.junk))).setC .tIn
        (some (edge (N.rect p.peak (N.lit 0)) N.czero p.center r))) := by
    unfold modelLeft modelChecks guarded
    rw [if_neg (by rw [herr]; simp)]
    simp only []
    rw [if_neg (by simpa using hk), if_pos hA, e1, Res.ok_bind, if_neg (by rw [Tau.setC_err, herr]; simp), e2, Res.ok_bind]
  rw [main]
  refine ⟨fun h => if_pos ?_, fun h h' => if_neg ?_⟩
  · rcases h with h | h
    · rw [h]; rfl
    · rw [h]; simp
  · rw [h, h']; simp

/-- **C54** (partial) The same for the other side; only `T_in` changes.
Missing: an edge at the last radius (`C54_last_false`), missing arrays (`C54_null_false`). -/
theorem C54_right_partial (N : Num Dbl Cpx) (p : ModelParams) {t : TauD} (herr : t.err = none) (hk : p.kind = .rightEdge)
    {r : List Dbl} {l : List Cpx} (hr : t.arr .rho = some r) (hl : t.carr .tIn = some l)
    (hn : r.length = t.arrSize) (hm : l.length = t.arrSize) (h0 : t.arrSize ≠ 0) (ha : Nondecreasing r)
    {first last : Dbl} (hf : r[0]? = some first) (hz : r[t.arrSize - 1]? = some last)
    (he : last.eq p.center = false ∨ p.center.le first = true) :
    modelRight N (some p) t =
      .ok (t.setC .tIn (some (edge N.czero (N.rect p.peak (N.lit 0)) p.center r))) := by
  unfold modelRight guarded
  rw [if_neg (by rw [herr]; simp)]
  simp only []
  rw [if_neg (by simpa using hk), edge_ideal _ _ _ hr hl hn hm h0 ha hf hz he, Res.ok_bind]

/-- **C54** The ideal profiles are complementary: in each row exactly one of them has the transmittance, the other one
is zero. -/
theorem C54_complementary (T zero : Cpx) (c : Dbl) (r : List Dbl) (i : Nat) (x : Dbl) (h : r[i]? = some x) :
    ((edge T zero c r)[i]? = some T ∧ (edge zero T c r)[i]? = some zero) ∨
    ((edge T zero c r)[i]? = some zero ∧ (edge zero T c r)[i]? = some T) := by
  unfold edge
  simp only [List.getElem?_map, h, Option.map_some]
  cases x.lt c
  · exact .inr ⟨rfl, rfl⟩
  · exact .inl ⟨rfl, rfl⟩

theorem first_unique {r : List Dbl} {c : Dbl} {m m' : Nat}
    (h1 : ∃ x, r[m]? = some x ∧ x.lt c = false) (h2 : ∀ i x, i < m → r[i]? = some x → x.lt c = true)
    (h1' : ∃ x, r[m']? = some x ∧ x.lt c = false) (h2' : ∀ i x, i < m' → r[i]? = some x → x.lt c = true) : m = m' := by
  obtain ⟨x, hx, hxc⟩ := h1
  obtain ⟨y, hy, hyc⟩ := h1'
  rcases Nat.lt_trichotomy m m' with h | h | h
  · rw [h2' m x h hx] at hxc; cases hxc
  · exact h
  · rw [h2 m' y h hy] at hyc; cases hyc

/-- **C54** What the two functions compute is complementary, for all arrays (also those with an edge at the last radius
and those that are not ascending) and all edges: in each row one of them has the transmittance, the other one zero. -/
theorem C54_complementary_computed (T zero : Cpx) (c : Dbl) {t : TauD} {r : List Dbl} {l : List Cpx}
    (hr : t.arr .rho = some r) (hl : t.carr .tIn = some l) (hn : r.length = t.arrSize) (hm : l.length = t.arrSize)
    (h0 : t.arrSize ≠ 0) :
    ∃ a b f, edgeProfile T zero c t = .ok (t.setC .tIn (some a), f) ∧
      edgeProfile zero T c t = .ok (t.setC .tIn (some b), f) ∧ a.length = t.arrSize ∧ b.length = t.arrSize ∧
      ∀ i, i < t.arrSize → (a[i]? = some T ∧ b[i]? = some zero) ∨ (a[i]? = some zero ∧ b[i]? = some T) := by
  obtain ⟨a, f, e, ha, first, last, hf, hz, h⟩ := edgeProfile_ok T zero c hr hl hn hm h0
  obtain ⟨b, f', e', hb, first', last', hf', hz', h'⟩ := edgeProfile_ok zero T c hr hl hn hm h0
  rw [hf] at hf'; rw [hz] at hz'
  cases hf'; cases hz'
  rcases h with ⟨h1, h2, h3⟩ | ⟨h1, h2, h3, h4⟩ | ⟨h1, h2, h3, m, h4, h5, h6, h7⟩ <;>
    rcases h' with ⟨g1, g2, g3⟩ | ⟨g1, g2, g3, g4⟩ | ⟨g1, g2, g3, m', g4, g5, g6, g7⟩
  · subst h2 g2
    exact ⟨a, b, true, e, e', ha, hb, fun i hi => .inr ⟨h3 i hi, g3 i hi⟩⟩
  · rw [h1] at g1; cases g1
  · rw [h1] at g1; cases g1
  · rw [h1] at g1; cases g1
  · subst h3 g3
    exact ⟨a, b, true, e, e', ha, hb, fun i hi => .inl ⟨h4 i hi, g4 i hi⟩⟩
  · rw [h2] at g2; cases g2
  · rw [h1] at g1; cases g1
  · rw [h2] at g2; cases g2
  · subst h3 g3
    have := first_unique h5 h6 g5 g6
    subst this
    refine ⟨a, b, false, e, e', ha, hb, fun i hi => ?_⟩
    rw [h7 i hi, g7 i hi]
    by_cases hh : i < m
    · rw [if_pos hh, if_pos hh]; exact .inl ⟨rfl, rfl⟩
    · rw [if_neg hh, if_neg hh]; exact .inr ⟨rfl, rfl⟩

/-- **C54** No undefined behaviour if the arrays are there and not empty, whatever the radii and the edge. -/
theorem C54_safe (N : Num Dbl Cpx) (p : Option ModelParams) {t : TauD}
    {r : List Dbl} {l : List Cpx} (hr : t.arr .rho = some r) (hl : t.carr .tIn = some l)
    (hn : r.length = t.arrSize) (hm : l.length = t.arrSize) (h0 : t.arrSize ≠ 0) :
    ∃ u, modelRight N p t = .ok u ∧ ∀ f, f ≠ .tIn → u.carr f = t.carr f := by
  unfold modelRight guarded
  split
  · exact ⟨t, rfl, fun _ _ => rfl⟩
  cases p with
  | none => exact ⟨_, rfl, fun _ _ => rfl⟩
  | some p =>
    simp only []
    split
    · exact ⟨_, rfl, fun _ _ => rfl⟩
    obtain ⟨a, f, e, -⟩ := edgeProfile_ok N.czero (N.rect p.peak (N.lit 0)) p.center hr hl hn hm h0
    rw [e, Res.ok_bind]
    exact ⟨_, rfl, fun f hf => setC_carr_ne _ _ hf⟩

/-- An edge at the last radius: the computed profile is constant, so that the value in the last row is that of the other
side. -/
theorem edge_last (below above : Cpx) {t : TauD} {r : List Dbl} {l : List Cpx}
    (hr : t.arr .rho = some r) (hl : t.carr .tIn = some l) (hn : r.length = t.arrSize) (hm : l.length = t.arrSize)
    (h0 : t.arrSize ≠ 0) {first last : Dbl} (hf : r[0]? = some first)
    (hz : r[t.arrSize - 1]? = some last) (hlt : first.lt last = true) :
    edgeProfile below above last t = .ok (t.setC .tIn (some (List.replicate t.arrSize below)), true) := by
  obtain ⟨l', b, e, hl', first', last', hf', hz', h⟩ := edgeProfile_ok below above last hr hl hn hm h0
  rw [hf] at hf'; rw [hz] at hz'
  cases hf'; cases hz'
  have hself : last.le last = true := by
    cases last with
    | nan => cases first <;> cases hlt
    | _ => simp [Dbl.le, Dbl.lt, Dbl.eq]
  rcases h with ⟨hc, -, -⟩ | ⟨-, -, hb, hv⟩ | ⟨-, hc, -⟩
  · rw [Dbl.not_lt_of_le hc] at hlt; cases hlt
  · rw [e, hb]
    congr 4
    apply List.ext_getElem?
    intro i
    by_cases hi : i < t.arrSize
    · rw [hv i hi, List.getElem?_replicate, if_pos hi]
    · rw [List.getElem?_eq_none (by omega), List.getElem?_eq_none (by simp; omega)]
  · rw [hself] at hc; cases hc

/-- **C54** is false for an edge at the last radius, for every array: `T_in` is zero in the last row although this row
is at the edge (the ideal profile has the transmittance there). -/
theorem C54_last_false (N : Num Dbl Cpx) (p : ModelParams) {t : TauD} (herr : t.err = none) (hk : p.kind = .rightEdge)
    {r : List Dbl} {l : List Cpx} (hr : t.arr .rho = some r) (hl : t.carr .tIn = some l)
    (hn : r.length = t.arrSize) (hm : l.length = t.arrSize) (h0 : t.arrSize ≠ 0)
    {first : Dbl} (hf : r[0]? = some first) (hz : r[t.arrSize - 1]? = some p.center)
    (hlt : first.lt p.center = true) :
    modelRight N (some p) t = .ok (t.setC .tIn (some (List.replicate t.arrSize N.czero))) ∧
    (edge N.czero (N.rect p.peak (N.lit 0)) p.center r)[t.arrSize - 1]? = some (N.rect p.peak (N.lit 0)) := by
  constructor
  · unfold modelRight guarded
    rw [if_neg (by rw [herr]; simp)]
    simp only []
    rw [if_neg (by simpa using hk), edge_last _ _ hr hl hn hm h0 hf hz hlt, Res.ok_bind]
  · unfold edge
    rw [List.getElem?_map, hz, Option.map_some, Dbl.lt_irrefl]
    rfl

/-- **C53** is false for an edge at the last radius: `T_in` is the transmittance in all rows, also in the last one. -/
theorem C53_last_false (N : Num Dbl Cpx) (L : Lib) (sem : Sem) (Z : FFT) (E : Env) (A : ModelMem) (p : ModelParams)
    {t : TauD} (herr : t.err = none) (hk : p.kind = .leftEdge) (hA : A.out = true) (hc : CoreArrays t)
    {r : List Dbl} {l : List Cpx} (hr : t.arr .rho = some r) (hl : t.carr .tIn = some l)
    (hn : r.length = t.arrSize) (hm : l.length = t.arrSize) (h0 : t.arrSize ≠ 0)
    {first : Dbl} (hf : r[0]? = some first) (hz : r[t.arrSize - 1]? = some p.center)
    (hlt : first.lt p.center = true) :
    (∃ u, modelLeft N L sem Z E A (some p) t = .ok u ∧
      u.carr .tIn = some (List.replicate t.arrSize (N.rect p.peak (N.lit 0)))) ∧
    (edge (N.rect p.peak (N.lit 0)) N.czero p.center r)[t.arrSize - 1]? = some N.czero := by
  have hcore := coreThere_of (t := t.setC .tOut (some ((List.range t.arrSize).map E.junk))) hc
    (by simp [Tau.setC, hl]) (by simp [Tau.setC])
  have e1 : checkCoreData (t.setC .tOut (some ((List.range t.arrSize).map E.junk))) =
      .ok (t.setC .tOut (some ((List.range t.arrSize).map E.junk))) := by
    rcases checkCoreData_cases (t := t.setC .tOut (some ((List.range t.arrSize).map E.junk))) herr with h | h
    · exact h.2
    · exact absurd hcore h.1
  have e2 := edge_last (N.rect p.peak (N.lit 0)) N.czero
    (t := t.setC .tOut (some ((List.range t.arrSize).map E.junk))) (r := r) (l := l) hr (by simp [Tau.setC, hl])
    hn hm h0 hf hz hlt
  refine ⟨⟨(t.setC .tOut (some ((List.range t.arrSize).map E.junk))).setC .tIn
    (some (List.replicate t.arrSize (N.rect p.peak (N.lit 0)))), ?_, by simp [Tau.setC]⟩, ?_⟩
  · unfold modelLeft modelChecks guarded
    rw [if_neg (by rw [herr]; simp)]
    simp only []
    rw [if_neg (by simpa using hk), if_pos hA, e1, Res.ok_bind, if_neg (by rw [Tau.setC_err, herr]; simp), e2, Res.ok_bind]
    rfl
  · unfold edge
    rw [List.getElem?_map, hz, Option.map_some, Dbl.lt_irrefl]
    rfl

/-- **C54** is false for objects without radii: the function has no check, it dereferences NULL. -/
theorem C54_null_false (N : Num Dbl Cpx) (p : ModelParams) {t : TauD} (herr : t.err = none) (hk : p.kind = .rightEdge)
    (hr : t.arr .rho = none) : modelRight N (some p) t = .ub .nullDeref := by
  unfold modelRight guarded
  rw [if_neg (by rw [herr]; simp)]
  simp only []
  rw [if_neg (by simpa using hk)]
  unfold edgeProfile
  rw [hr]
  rfl

/-- ... and for objects without rows the element before the first one is read, unless the edge is at most the element
`rho_km_vals[0]`, which is outside the array as well. -/
theorem C54_empty_false (N : Num Dbl Cpx) (p : ModelParams) {t : TauD} (herr : t.err = none) (hk : p.kind = .rightEdge)
    (hr : t.arr .rho = some []) : modelRight N (some p) t = .ub .oobRead := by
  unfold modelRight guarded
  rw [if_neg (by rw [herr]; simp)]
  simp only []
  rw [if_neg (by simpa using hk)]
  unfold edgeProfile
  rw [hr]
  rfl

/-! ### The result of a run -/

/-- **C53** What is computed from the ideal profile, if the flag `use_fwd` is not set: `T_in` is the forward transform of
the profile, `T_out` is the reconstruction of `T_in` on the range shortened by half a window on both sides. -/
theorem C53_result (N : Num Dbl Cpx) (L : Lib) (Z : FFT) (E : Env) (hE : E.Lawful) (A : ModelMem) (fn : Fn) (l1 l2 : Nat)
    {t u : TauD} (hu : t.useFwd = false) (e : roundTrip N L (runXf N) Z E A fn l1 l2 t = .ok u) (hok : u.err = none)
    {li lo : List Cpx} (hi : t.carr .tIn = some li) (ho : t.carr .tOut = some lo) (h1 : li.length = t.arrSize)
    (h2 : lo.length = t.arrSize) :
    ∃ v w nw, diffractionCorrection N L (runXf N) Z E { t with useFwd := true } = .ok v ∧
      diffractionCorrection N L (runXf N) Z E { ((v.setC .tIn (v.carr .tOut)).setC .tOut
        (some (List.replicate t.arrSize N.czero))) with
        start := t.start + nw
        nUsed := t.nUsed - 2 * nw
        useFwd := false } = .ok w ∧ w.err = none ∧
      u.carr .tIn = v.carr .tOut ∧ u.carr .tOut = w.carr .tOut := by
  have hs := runXf_ignoresOut N
  obtain ⟨v, m, ws, nw, e1, e2, e3, e4, h⟩ := roundTrip_ok e
  obtain ⟨fv, -⟩ := dc_frame' hs hE e1
  obtain ⟨lv, hlv, llv, -⟩ := fv.out lo ho
  have hvs : v.arrSize = t.arrSize := fv.arrSize
  have hvi : v.carr .tIn = some li := (fv.carr (by decide)).trans hi
  rw [move_ok N hlv hvi (by omega) (by omega)] at e2
  cases e2
  rw [← hlv, hvs] at h
  rcases h with ⟨-, rfl⟩ | ⟨-, x, e5, h⟩
  · cases hok
  · rcases h with ⟨-, rfl⟩ | ⟨hc, -⟩
    · have es : v.start = t.start := fv.start
      have en : v.nUsed = t.nUsed := fv.nUsed
      have e5' := e5
      simp only [show ((v.setC .tIn (v.carr .tOut)).setC .tOut (some (List.replicate t.arrSize N.czero))).start = t.start from es,
        show ((v.setC .tIn (v.carr .tOut)).setC .tOut (some (List.replicate t.arrSize N.czero))).nUsed = t.nUsed from en] at e5'
      refine ⟨v, x, nw, e1, e5', hok, ?_, rfl⟩
      have := (dc_frame' hs hE e5).1.carr (f := .tIn) (by decide)
      exact this.trans rfl
    · rw [hu] at hc; cases hc

/-! ### C55 -/

/-- **C55** is false for all parameters of the sine wave: the function wants those of a left edge. -/
theorem C55_false (N : Num Dbl Cpx) (L : Lib) (sem : Sem) (Z : FFT) (E : Env) (A : ModelMem) (sin : Dbl → Dbl)
    (p : ModelParams) (hk : p.kind = .sineWave) {t : TauD} (herr : t.err = none) :
    ∃ e, modelSine N L sem Z E A sin (some p) t = .ok { t with err := some e } := by
  refine ⟨⟨.modelSine, 39⟩, ?_⟩
  unfold modelSine modelChecks guarded
  rw [if_neg (by rw [herr]; simp)]
  simp only []
  rw [if_pos (by rw [hk]; decide)]
  rfl

/-- **C55** (partial) With parameters of a left edge the function works with the profile sin²(3 (rho - center)).
Missing: all other parameters, see `C55_false`. -/
theorem C55_profile_partial (N : Num Dbl Cpx) (L : Lib) (sem : Sem) (Z : FFT) (E : Env) (A : ModelMem) (sin : Dbl → Dbl)
    (p : ModelParams) (hk : p.kind = .leftEdge) {t : TauD} (herr : t.err = none) (hA : A.out = true)
    (hc : CoreArrays t) {r : List Dbl} {l : List Cpx} (hr : t.arr .rho = some r) (hl : t.carr .tIn = some l)
    (hn : r.length = t.arrSize) (hm : l.length = t.arrSize) :
    modelSine N L sem Z E A sin (some p) t = roundTrip N L sem Z E A .modelSine 77 105
      ((t.setC .tOut (some ((List.range t.arrSize).map E.junk))).setC .tIn (some (r.map fun x =>
        N.rect (N.mul (sin (N.mul (N.lit 3) (N.sub x p.center))) (sin (N.mul (N.lit 3) (N.sub x p.center)))) (N.lit 0)))) := by
  have hcore := coreThere_of (t := t.setC .tOut (some ((List.range t.arrSize).map E.junk))) hc
    (by simp [Tau.setC, hl]) (by simp [Tau.setC])
  have e1 : checkCoreData (t.setC .tOut (some ((List.range t.arrSize).map E.junk))) =
      .ok (t.setC .tOut (some ((List.range t.arrSize).map E.junk))) := by
    rcases checkCoreData_cases (t := t.setC .tOut (some ((List.range t.arrSize).map E.junk))) herr with h | h
    · exact h.2
    · exact absurd hcore h.1
  obtain ⟨f, hf⟩ : ∃ f : Dbl → Cpx, f = fun x => N.rect (N.mul (sin (N.mul (N.lit 3) (N.sub x p.center)))
      (sin (N.mul (N.lit 3) (N.sub x p.center)))) (N.lit 0) := ⟨_, rfl⟩
  obtain ⟨l', e2, b1, b2⟩ := fillIn_ok (sineStep N sin p) (fun i => f (r.getD i .nan))
    (t := t.setC .tOut (some ((List.range t.arrSize).map E.junk))) (l := l) (by simp [Tau.setC, hl]) 0 t.arrSize (by omega)
    (fun i l' _ hi => by
      unfold sineStep
      have hir : i < r.length := by omega
      have : ((t.setC .tOut (some ((List.range t.arrSize).map E.junk))).setC .tIn (some l')).arr .rho = some r := hr
      rw [this, rdP_some, rd_lt hir, Res.ok_bind, hf]
      simp [hir])
  have hl' : l' = r.map f := by
    apply List.ext_getElem?
    intro i
    rw [List.getElem?_map]
    by_cases hi : i < r.length
    · rw [b2 i (by omega), if_pos (by omega)]
      simp [hi]
    · rw [List.getElem?_eq_none (by omega), List.getElem?_eq_none (by omega)]
      rfl
  rw [hl'] at e2
  rw [← hf]
  unfold modelSine modelChecks guarded
  rw [if_neg (by rw [herr]; simp)]
  simp only []
  rw [if_neg (by simpa using hk), if_pos hA, e1, Res.ok_bind, if_neg (by rw [Tau.setC_err, herr]; simp)]
  have : (t.setC .tOut (some ((List.range t.arrSize).map E.junk))).arrSize = t.arrSize := rfl
  rw [this, e2, Res.ok_bind]

/-! ### C56 -/

theorem roundTrip_settings (N : Num Dbl Cpx) (L : Lib) (Z : FFT) (E : Env) (hE : E.Lawful) (A : ModelMem) (fn : Fn) (l1 l2 : Nat)
    {t u : TauD} (e : roundTrip N L (runXf N) Z E A fn l1 l2 t = .ok u) :
    ∃ ws nw, rdN (t.arr .w) t.arrSize = .ok ws ∧ (N.div (L.arrMax ws) (N.mul t.dx (N.lit 2))).toSize = .ok nw ∧
      ((t.nUsed ≤ 2 * nw ∧ u.err ≠ none ∧ u.useFwd = true ∧ u.start = t.start ∧ u.nUsed = t.nUsed) ∨
       (2 * nw < t.nUsed ∧ u.useFwd = t.useFwd ∧
        ((t.useFwd = false ∧ u.start = t.start + nw ∧ u.nUsed + 2 * nw = t.nUsed) ∨
         (t.useFwd = true ∧ t.nUsed ≤ 4 * nw ∧ u.err ≠ none ∧ u.start = t.start + nw ∧ u.nUsed + 2 * nw = t.nUsed) ∨
         (t.useFwd = true ∧ 4 * nw < t.nUsed ∧ u.start = t.start + 2 * nw ∧ u.nUsed + 4 * nw = t.nUsed)))) := by
  have hs := runXf_ignoresOut N
  obtain ⟨v, m, ws, nw, e1, e2, e3, e4, h⟩ := roundTrip_ok e
  obtain ⟨fv, -⟩ := dc_frame' hs hE e1
  obtain ⟨a, b, rfl⟩ := move_frame e2
  have hw : v.arr .w = t.arr .w := fv.arr (by decide)
  have h1 : v.arrSize = t.arrSize := fv.arrSize
  have h2 : v.dx = t.dx := fv.dx
  have h3 : v.nUsed = t.nUsed := fv.nUsed
  have h4 : v.start = t.start := fv.start
  have h5 : v.useFwd = true := fv.useFwd
  refine ⟨ws, nw, ?_, ?_, ?_⟩
  · rw [← hw, ← h1]; exact e3
  · rw [← h2]; exact e4
  rcases h with ⟨hn, rfl⟩ | ⟨hn, x, e5, h⟩
  · have hn' : v.nUsed ≤ 2 * nw := hn
    exact .inl ⟨by omega, by simp, h5, h4, h3⟩
  · have hn' : 2 * nw < v.nUsed := hn
    obtain ⟨fx, -⟩ := dc_frame' hs hE e5
    have x1 : x.start = v.start + nw := fx.start
    have x2 : x.nUsed = v.nUsed - 2 * nw := fx.nUsed
    have x3 : x.dx = v.dx := fx.dx
    rcases h with ⟨hf, rfl⟩ | ⟨hf, nw', e6, z, rfl, h⟩
    · refine .inr ⟨by omega, hf.symm, .inl ⟨hf, ?_, ?_⟩⟩
      · show x.start = _; omega
      · show x.nUsed + _ = _; omega
    · have : nw' = nw := by
        rw [x3] at e6
        have e4' : (N.div (L.arrMax ws) (N.mul v.dx (N.lit 2))).toSize = .ok nw := e4
        rw [e4'] at e6; cases e6; rfl
      subst this
      rcases h with ⟨hn2, rfl⟩ | ⟨hn2, y, e7, rfl⟩
      · refine .inr ⟨by omega, ?_, .inr (.inl ⟨hf, by omega, by simp, ?_, ?_⟩)⟩
        · exact hf.symm
        · show x.start = _; omega
        · show x.nUsed + _ = _; omega
      · obtain ⟨fy, -⟩ := dc_frame' hs hE e7
        have y1 : y.start = x.start + nw' := fy.start
        have y2 : y.nUsed = x.nUsed - 2 * nw' := fy.nUsed
        have y3 : y.useFwd = true := fy.useFwd
        refine .inr ⟨by omega, ?_, .inr (.inr ⟨hf, by omega, ?_, ?_⟩)⟩
        · show y.useFwd = _; rw [y3, hf]
        · show y.start = _; omega
        · show y.nUsed + _ = _; omega

/-- **C56** (partial) After a successful run `use_fwd` has its old value.  `start` and `n_used` have not: they are
those of the range shortened by `m` rows on both sides, where `m` is zero if the edge is outside the data, and
otherwise half of the largest window, or twice that.
Missing: equality of `start` and `n_used` (`C56_range_false`); error exits (`C56_error_false`). -/
theorem C56_settings_partial (N : Num Dbl Cpx) (L : Lib) (Z : FFT) (E : Env) (hE : E.Lawful) (A : ModelMem)
    (p : Option ModelParams) {t u : TauD} (e : modelLeft N L (runXf N) Z E A p t = .ok u) (hok : u.err = none)
    {r : List Dbl} {l : List Cpx} (hr : t.arr .rho = some r) (hl : t.carr .tIn = some l)
    (hn : r.length = t.arrSize) (hm : l.length = t.arrSize) (h0 : t.arrSize ≠ 0) :
    u.useFwd = t.useFwd ∧ ∃ m, u.start = t.start + m ∧ u.nUsed + 2 * m = t.nUsed ∧
      (m = 0 ∨ ∃ ws nw, rdN (t.arr .w) t.arrSize = .ok ws ∧ (N.div (L.arrMax ws) (N.mul t.dx (N.lit 2))).toSize = .ok nw ∧
        m = if t.useFwd then 2 * nw else nw) := by
  unfold modelLeft modelChecks guarded at e
  cases herr : t.err with
  | some er => rw [if_pos (by rw [herr]; rfl)] at e; cases e; rw [herr] at hok; cases hok
  | none =>
    rw [if_neg (by rw [herr]; simp)] at e
    cases p with
    | none => cases e; cases hok
    | some p =>
      simp only [] at e
      by_cases hk : p.kind ≠ .leftEdge
      · rw [if_pos hk] at e; cases e; cases hok
      rw [if_neg hk] at e
      obtain ⟨t0, ht0⟩ : ∃ t0 : TauD, t0 = t.setC .tOut
        (if A.out = true then some ((List.range t.arrSize).map E.junk) else none) := ⟨_, rfl⟩
      rw [← ht0] at e
      have he0 : t0.err = none := by rw [ht0]; exact herr
      rcases checkCoreData_cases he0 with ⟨-, ec⟩ | ⟨-, ln, ec⟩
      · rw [ec, Res.ok_bind, if_neg (by rw [he0]; simp)] at e
        obtain ⟨l', b, ep, -⟩ := edgeProfile_ok (N.rect p.peak (N.lit 0)) N.czero p.center (t := t0) (r := r) (l := l)
          (by rw [ht0]; exact hr) (by rw [ht0]; simpa [Tau.setC] using hl) (by rw [ht0]; exact hn)
          (by rw [ht0]; exact hm) (by rw [ht0]; exact h0)
        rw [ep, Res.ok_bind] at e
        have s1 : (t0.setC .tIn (some l')).useFwd = t.useFwd := by rw [ht0]; rfl
        have s2 : (t0.setC .tIn (some l')).start = t.start := by rw [ht0]; rfl
        have s3 : (t0.setC .tIn (some l')).nUsed = t.nUsed := by rw [ht0]; rfl
        have s4 : (t0.setC .tIn (some l')).arr = t.arr := by rw [ht0]; rfl
        have s5 : (t0.setC .tIn (some l')).arrSize = t.arrSize := by rw [ht0]; rfl
        have s6 : (t0.setC .tIn (some l')).dx = t.dx := by rw [ht0]; rfl
        cases b
        · simp only [Bool.false_eq_true, if_false] at e
          obtain ⟨ws, nw, f1, f2, h⟩ := roundTrip_settings N L Z E hE A _ _ _ e
          rw [s1, s2, s3] at h
          rw [s4, s5] at f1
          rw [s6] at f2
          rcases h with ⟨-, hc, -⟩ | ⟨-, hf, h⟩
          · exact absurd hok hc
          refine ⟨hf, ?_⟩
          rcases h with ⟨g, g1, g2⟩ | ⟨-, -, hc, -⟩ | ⟨g, -, g1, g2⟩
          · exact ⟨nw, g1, by omega, .inr ⟨ws, nw, f1, f2, by rw [g]; rfl⟩⟩
          · exact absurd hok hc
          · exact ⟨2 * nw, g1, by omega, .inr ⟨ws, nw, f1, f2, by rw [g]; rfl⟩⟩
        · simp only [if_true] at e
          cases e
          exact ⟨s1, 0, s2, s3, .inl rfl⟩
      · rw [ec, Res.ok_bind, if_pos (by simp)] at e
        cases e
        cases hok

/-! ### Examples and counterexamples -/

/-- A profile with amplitude 1/2 and the edge at `c`. -/
def halfEdge (k : ModelKind) (c : Dbl) : ModelParams := ⟨k, .fin (1 / 2), c⟩

/-- Both allocations succeed. -/
def memOk : ModelMem := ⟨true, true⟩

/-- Width 2 everywhere. -/
def twos : List Dbl := List.replicate 10 (.fin 2)

theorem dcTau_core (psi : Psi) (fwd : Bool) (w : List Dbl) : CoreArrays (dcTau psi fwd w) := by
  intro f hf
  cases f <;> first | (simp [dcTau, reconTau]; done) | exact absurd hf (by decide)

theorem tenRadii_asc : Nondecreasing tenRadii := by
  have : tenRadii.Pairwise fun a b => a.le b = true := by decide +kernel
  exact this

/-- Non-vacuity of `C53_left_partial`, edge outside the data. -/
example : ∃ t1, modelLeft exactNum unitLib (runXf exactNum) ⟨id, id⟩ exampleEnv memOk (some (halfEdge .leftEdge (.fin 100)))
      (dcTau .newtonRiemann false twos) = .ok t1 ∧
    t1.carr .tIn = some (edge (exactNum.rect (.fin (1 / 2)) (exactNum.lit 0)) exactNum.czero (.fin 100) tenRadii) := by
  obtain ⟨t1, h, h1, -⟩ := C53_left_partial exactNum unitLib (runXf exactNum) ⟨id, id⟩ exampleEnv memOk
    (halfEdge .leftEdge (.fin 100)) (t := dcTau .newtonRiemann false twos) rfl rfl rfl (dcTau_core _ _ _) rfl rfl rfl rfl
    (by decide) tenRadii_asc (first := .fin 10) (last := .fin 19) (by decide +kernel) (by decide +kernel)
    (.inl (by decide +kernel))
  exact ⟨t1, h1 (.inr (by decide +kernel)), by rw [h]; rfl⟩

/-- Non-vacuity of `C53_left_partial` and `C53_result`, edge inside: the profile is diffracted and reconstructed. -/
example : ∃ u, modelLeft exactNum unitLib (runXf exactNum) ⟨id, id⟩ exampleEnv memOk (some (halfEdge .leftEdge (.fin 14)))
      (dcTau .newtonRiemann false twos) = .ok u ∧ u.err = none := by
  obtain ⟨u, e, hu⟩ := Res.of_test (x := modelLeft exactNum unitLib (runXf exactNum) ⟨id, id⟩ exampleEnv memOk
    (some (halfEdge .leftEdge (.fin 14))) (dcTau .newtonRiemann false twos))
    (p := fun u => u.err == none) (by decide +kernel)
  exact ⟨u, e, by simpa using hu⟩

/-- Non-vacuity of `C54_right_partial`, and what the profile is. -/
example : modelRight exactNum (some (halfEdge .rightEdge (.fin 14))) (dcTau .newtonRiemann false twos) =
      .ok ((dcTau .newtonRiemann false twos).setC .tIn
        (some (edge exactNum.czero (exactNum.rect (.fin (1 / 2)) (exactNum.lit 0)) (.fin 14) tenRadii))) ∧
    (edge exactNum.czero (exactNum.rect (.fin (1 / 2)) (exactNum.lit 0)) (.fin 14) tenRadii)[3]? = some ⟨.fin 0, .fin 0⟩ ∧
    (edge exactNum.czero (exactNum.rect (.fin (1 / 2)) (exactNum.lit 0)) (.fin 14) tenRadii)[4]? = some ⟨.fin (1 / 2), .fin 0⟩ :=
  ⟨C54_right_partial exactNum (halfEdge .rightEdge (.fin 14)) (t := dcTau .newtonRiemann false twos) rfl rfl rfl rfl rfl rfl
    (by decide) tenRadii_asc (first := .fin 10) (last := .fin 19) (by decide +kernel) (by decide +kernel)
    (.inl (by decide +kernel)), by decide +kernel, by decide +kernel⟩

/-- Non-vacuity of `C54_last_false`: ten rows, edge at the last radius 19. -/
example : modelRight exactNum (some (halfEdge .rightEdge (.fin 19))) (dcTau .newtonRiemann false twos) =
      .ok ((dcTau .newtonRiemann false twos).setC .tIn (some (List.replicate 10 exactNum.czero))) :=
  (C54_last_false exactNum (halfEdge .rightEdge (.fin 19)) (t := dcTau .newtonRiemann false twos) rfl rfl rfl rfl rfl rfl
    (by decide) (first := .fin 10) (by decide +kernel) (by decide +kernel) (by decide +kernel)).1

/-- Non-vacuity of `C53_last_false`. -/
example : ∃ u, modelLeft exactNum unitLib (runXf exactNum) ⟨id, id⟩ exampleEnv memOk (some (halfEdge .leftEdge (.fin 19)))
      (dcTau .newtonRiemann false twos) = .ok u ∧
    u.carr .tIn = some (List.replicate 10 (exactNum.rect (.fin (1 / 2)) (exactNum.lit 0))) :=
  (C53_last_false exactNum unitLib (runXf exactNum) ⟨id, id⟩ exampleEnv memOk (halfEdge .leftEdge (.fin 19))
    (t := dcTau .newtonRiemann false twos) rfl rfl rfl (dcTau_core _ _ _) rfl rfl rfl rfl
    (by decide) (first := .fin 10) (by decide +kernel) (by decide +kernel) (by decide +kernel)).1

/-- Non-vacuity of `C54_complementary_computed`, with radii that are not ascending. -/
example : ∃ a b f, edgeProfile ⟨.fin 1, .fin 0⟩ ⟨.fin 0, .fin 0⟩ (.fin 14) { dcTau .newtonRiemann false twos with
      arr := fun _ => some tenRadii.reverse } = .ok (Tau.setC { dcTau .newtonRiemann false twos with
      arr := fun _ => some tenRadii.reverse } .tIn (some a), f) ∧ a ≠ b ∧ b.length = 10 := by
  obtain ⟨a, b, f, e, -, ha, hb, h⟩ := C54_complementary_computed ⟨.fin 1, .fin 0⟩ ⟨.fin 0, .fin 0⟩ (.fin 14)
    (t := { dcTau .newtonRiemann false twos with arr := fun _ => some tenRadii.reverse }) (l := _) rfl rfl
    (by simp [tenRadii]; rfl) rfl (by decide)
  refine ⟨a, b, f, e, ?_, hb⟩
  rintro rfl
  rcases h 0 (by decide) with ⟨h1, h2⟩ | ⟨h1, h2⟩
  · rw [h1] at h2; revert h2; decide +kernel
  · rw [h1] at h2; revert h2; decide +kernel

/-- Non-vacuity of `C55_profile_partial`: a run without error. -/
example : ∃ u, modelSine exactNum unitLib (runXf exactNum) ⟨id, id⟩ exampleEnv memOk id (some (halfEdge .leftEdge (.fin 14)))
      (dcTau .newtonRiemann false twos) = .ok u ∧ u.err = none := by
  obtain ⟨u, e, hu⟩ := Res.of_test (x := modelSine exactNum unitLib (runXf exactNum) ⟨id, id⟩ exampleEnv memOk id
    (some (halfEdge .leftEdge (.fin 14))) (dcTau .newtonRiemann false twos))
    (p := fun u => u.err == none) (by decide +kernel)
  exact ⟨u, e, by simpa using hu⟩

/-- **C56** is false: a successful run moves the processed range. -/
theorem C56_range_false :
    ¬ ∀ (p : ModelParams) (t u : TauD), t.err = none →
      modelLeft exactNum unitLib (runXf exactNum) ⟨id, id⟩ exampleEnv memOk (some p) t = .ok u → u.err = none →
      u.start = t.start ∧ u.nUsed = t.nUsed := by
  intro hall
  obtain ⟨u, e, hu⟩ := Res.of_test (x := modelLeft exactNum unitLib (runXf exactNum) ⟨id, id⟩ exampleEnv memOk
    (some (halfEdge .leftEdge (.fin 14))) (dcTau .newtonRiemann false twos))
    (p := fun u => u.err == none && (u.start == 4)) (by decide +kernel)
  simp only [Bool.and_eq_true, beq_iff_eq] at hu
  have := (hall _ _ u rfl e hu.1).1
  rw [hu.2] at this
  exact absurd this (by decide)

/-- **C56** is false: after an error `use_fwd` may be set although it was not set before. -/
theorem C56_error_false :
    ¬ ∀ (p : ModelParams) (t u : TauD), t.err = none →
      modelLeft exactNum unitLib (runXf exactNum) ⟨id, id⟩ exampleEnv memOk (some p) t = .ok u →
      u.useFwd = t.useFwd := by
  intro hall
  obtain ⟨u, e, hu⟩ := Res.of_test (x := modelLeft exactNum unitLib (runXf exactNum) ⟨id, id⟩ exampleEnv memOk
    (some (halfEdge .leftEdge (.fin 14))) (dcTau .newtonRiemann false fours))
    (p := fun u => u.useFwd) (by decide +kernel)
  have := hall _ _ u rfl e
  rw [hu] at this
  exact absurd this (by decide)

end Verif
