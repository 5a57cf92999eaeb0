import Verif.Proofs.Window
import Verif.Proofs.Driver
import Verif.Base.Exact
import Verif.Spec.Window
import Verif.Props.C07
import Mathlib.Data.List.Perm.Subperm
import Mathlib.Tactic.FieldSimp
import Mathlib.Tactic.Push
import Mathlib.Data.Rat.Floor

/-!
# C09, C11, C12: processing range and window widths
-/
namespace Verif
open Spec

/-- What `getWindowWidth` reads: full-length radii, Fresnel scales, wavenumbers
and velocities. -/
structure RangeData (t : TauD) (rho F k v : List Dbl) : Prop where
  noErr : t.err = none
  hrho : t.arr .rho = some rho
  hF : t.arr .F = some F
  hk : t.arr .k = some k
  hv : t.arr .rhoDot = some v
  lrho : rho.length = t.arrSize
  lF : F.length = t.arrSize
  lk : k.length = t.arrSize
  lv : v.length = t.arrSize
  size : 1 < t.arrSize

theorem RangeData.spec {t : TauD} {rho F k v : List Dbl} (d : RangeData t rho F k v)
    (N : Num Dbl Cpx) (L : Lib) :
    ∃ u, getWindowWidth N L t = .ok u ∧
      (u.err ≠ none ∨ ∃ s m i x0 x1 w idx, Selected N L rho t u s m i x0 x1 w idx) :=
  getWindowWidth_spec N L d.noErr d.hrho d.hF d.hk d.hv d.lrho d.lF d.lk d.lv
    (by have := d.size; omega)

theorem RangeData.selected {t u : TauD} {rho F k v : List Dbl} (d : RangeData t rho F k v)
    {N : Num Dbl Cpx} {L : Lib} (e : getWindowWidth N L t = .ok u) (hu : u.err = none) :
    ∃ s m i x0 x1 w idx, Selected N L rho t u s m i x0 x1 w idx := by
  obtain ⟨u', e', h⟩ := d.spec N L
  rw [e] at e'; cases e'
  rcases h with h | h
  · exact absurd hu h
  · exact h

/-- **C09**, memory: whatever the radii, widths and the arithmetic are, no access
is out of bounds and nothing else is undefined. -/
theorem C09_memory_safe (N : Num Dbl Cpx) (L : Lib) (t : TauD) (rho F k v : List Dbl)
    (d : RangeData t rho F k v) : (getWindowWidth N L t).Safe := by
  obtain ⟨u, e, -⟩ := d.spec N L
  exact ⟨u, e⟩

/-- **C09**, the selected range: strictly inside the arrays; `range` is replaced by
radii of the data; nothing but `range`, `start`, `n_used` and the widths changes. -/
theorem C09_range_in_data (N : Num Dbl Cpx) (L : Lib) (t u : TauD) (rho F k v : List Dbl)
    (d : RangeData t rho F k v) (e : getWindowWidth N L t = .ok u) (hu : u.err = none) :
    u.start + u.nUsed < u.arrSize ∧ u.range0 ∈ rho ∧ u.range1 ∈ rho ∧
    (∃ w, u.arr .w = some w ∧ w.length = u.arrSize) ∧
    (∀ f, f ≠ .w → u.arr f = t.arr f) ∧ u.carr = t.carr ∧
    { u with range0 := t.range0, range1 := t.range1, start := t.start, nUsed := t.nUsed,
             arr := t.arr } = t := by
  obtain ⟨s, m, i, x0, x1, w, idx, S⟩ := d.selected e hu
  obtain rfl := S.result
  have h1 := S.fits
  have h2 := S.idx_le
  have h3 := S.idx_pos
  have h4 := S.i_lt
  refine ⟨?_, ?_, ?_, ⟨w, rfl, S.wlen⟩, ?_, rfl, rfl⟩
  · show s + i + (idx.length - 1) < t.arrSize
    omega
  · exact List.mem_of_getElem? S.first
  · rcases S.last with ⟨-, h, -⟩ | ⟨-, h, -⟩ <;> exact List.mem_of_getElem? h
  · intro f hf
    simp [Tau.setArr, hf]

/-- For ascending radii the rows located by the two scans are those with a
requested radius. -/
theorem Selected.requested {N : Num Dbl Cpx} {L : Lib} {l : List Dbl} {t u : TauD} {s m i : Nat}
    {x0 x1 : Dbl} {w : List Dbl} {idx : List Nat} (S : Selected N L l t u s m i x0 x1 w idx)
    (hl : l.length = t.arrSize)
    (ha : Ascending l) (hr : t.range0.isNaN = false) {n : Nat} {r : Dbl} (hn : l[n]? = some r) :
    (s ≤ n ∧ n < s + m) ↔ t.range0.le r = true ∧ r.le t.range1 = true := by
  have h1 := S.fits
  have hnl := (List.getElem?_eq_some_iff.1 hn).1
  constructor
  · rintro ⟨q1, q2⟩
    have hx0 := ha s n x0 r q1 S.first hn
    constructor
    · exact Dbl.le_trans (Dbl.le_of_not_lt (Dbl.not_nan_of_le_left hx0) hr S.first_ge) hx0
    · rcases S.last with ⟨a, b, c⟩ | ⟨-, -, -, c⟩
      · exact Dbl.le_trans (ha n _ r x1 (by omega) hn b) c
      · exact c n r (by omega) (by omega) hn
  · rintro ⟨q1, q2⟩
    constructor
    · by_contra hc
      have := S.before n r (by omega) hn
      rw [Dbl.not_lt_of_le q1] at this
      cases this
    · by_contra hc
      rcases S.last with ⟨a, b, c⟩ | ⟨a, b, c, -⟩
      · omega
      · have := Dbl.le_trans (ha (s + m) n x1 r (by omega) b hn) q2
        rw [c] at this
        cases this

/-- **C09**, containment: for ascending radii every radius of the processing range
lies between the requested limits. -/
theorem C09_range_requested (N : Num Dbl Cpx) (L : Lib) (t u : TauD) (rho F k v : List Dbl)
    (d : RangeData t rho F k v) (ha : Ascending rho) (hr : t.range0.isNaN = false)
    (e : getWindowWidth N L t = .ok u) (hu : u.err = none) (n : Nat) (hn : InRange u n) (r : Dbl)
    (hrn : rho[n]? = some r) : t.range0.le r = true ∧ r.le t.range1 = true := by
  obtain ⟨s, m, i, x0, x1, w, idx, S⟩ := d.selected e hu
  obtain rfl := S.result
  have h2 := S.idx_le
  have h3 := S.idx_pos
  have h4 := S.i_lt
  have hn1 : s + i ≤ n := hn.1
  have hn2 : n < s + i + (idx.length - 1) := hn.2
  exact (S.requested d.lrho ha hr hrn).1 ⟨by omega, by omega⟩

/-! ### C11 -/

theorem sorted_ge {idx : List Nat} (h : idx.Pairwise (· < ·)) :
    ∀ (j : Nat) (hj : j < idx.length), j ≤ idx[j] := by
  intro j
  induction j with
  | zero => intro hj; omega
  | succ j ih =>
    intro hj
    have h1 := ih (by omega)
    have h2 := List.pairwise_iff_getElem.1 h j (j + 1) (by omega) hj (by omega)
    omega

/-- The ends of the windows ascend with the radius over the requested radii. -/
def EndsAscend (N : Num Dbl Cpx) (lo hi : Dbl) (rho w : List Dbl) : Prop :=
  ∀ (a b : Nat) (ra rb wa wb : Dbl), a ≤ b → rho[a]? = some ra → rho[b]? = some rb →
    lo.le ra = true → ra.le hi = true → lo.le rb = true → rb.le hi = true →
    w[a]? = some wa → w[b]? = some wb →
    (N.sub ra (N.mul (N.lit (1/2)) wa)).le (N.sub rb (N.mul (N.lit (1/2)) wb)) = true ∧
    (N.add ra (N.mul (N.lit (1/2)) wa)).le (N.add rb (N.mul (N.lit (1/2)) wb)) = true

/-- The requested, legal points on the right form an initial segment, on the left a
final one. -/
structure Closed (N : Num Dbl Cpx) (l w : List Dbl) (s m : Nat) : Prop where
  right : ∀ a b, s ≤ a → a ≤ b → b < s + m → LegalRight N l w b → LegalRight N l w a
  left : ∀ a b, s ≤ a → a ≤ b → b < s + m → LegalLeft N l w a → LegalLeft N l w b

theorem Selected.closed {N : Num Dbl Cpx} {L : Lib} {l : List Dbl} {t u : TauD} {s m i : Nat}
    {x0 x1 : Dbl} {w : List Dbl} {idx : List Nat} (S : Selected N L l t u s m i x0 x1 w idx)
    (hl : l.length = t.arrSize) (ha : Ascending l) (hr : t.range0.isNaN = false)
    (he : EndsAscend N t.range0 t.range1 l w) : Closed N l w s m := by
  have h1 := S.fits
  have hw := S.wlen
  constructor
  · rintro a b q1 q2 q3 ⟨r, ω, rl, h1, h2, h3, h4⟩
    have ha' : a < l.length := by omega
    have hw' : a < w.length := by omega
    have A := (S.requested hl ha hr (n := a) (r := l[a]) (by simp [ha'])).1 ⟨by omega, by omega⟩
    have B := (S.requested hl ha hr h1).1 ⟨by omega, by omega⟩
    exact ⟨l[a], w[a], rl, by simp [ha'], by simp [hw'], h3,
      Dbl.lt_of_le_of_lt (he a b _ _ _ _ q2 (by simp [ha']) h1 A.1 A.2 B.1 B.2 (by simp [hw']) h2).2
        h4⟩
  · rintro a b q1 q2 q3 ⟨r, ω, r0, h1, h2, h3, h4⟩
    have hb' : b < l.length := by omega
    have hw' : b < w.length := by omega
    have B := (S.requested hl ha hr (n := b) (r := l[b]) (by simp [hb'])).1 ⟨by omega, by omega⟩
    have A := (S.requested hl ha hr h1).1 ⟨by omega, by omega⟩
    exact ⟨l[b], w[b], r0, by simp [hb'], by simp [hw'], h3,
      Dbl.lt_of_lt_of_le h4
        (he a b _ _ _ _ q2 h1 (by simp [hb']) A.1 A.2 B.1 B.2 h2 (by simp [hw'])).1⟩

/-- Members of a downward closed `idx`. -/
theorem Selected.mem_idx {N : Num Dbl Cpx} {L : Lib} {l : List Dbl} {t u : TauD} {s m i : Nat}
    {x0 x1 : Dbl} {w : List Dbl} {idx : List Nat} (S : Selected N L l t u s m i x0 x1 w idx)
    (h : Closed N l w s m) (j : Nat) : j ∈ idx ↔ j < idx.length := by
  have h4 := S.i_lt
  constructor
  · intro hj
    by_contra hc
    -- all numbers up to `j` are members, more than there is room for
    have hsub : List.range (idx.length + 1) ⊆ idx := by
      intro a ha
      have ha := List.mem_range.1 ha
      rw [S.right] at hj ⊢
      exact ⟨by omega, h.right _ _ (by omega) (by omega) (by omega) hj.2⟩
    have := (List.subperm_of_subset List.nodup_range hsub).length_le
    simp at this
  · intro hj
    have h1 := sorted_ge S.idx_sorted j hj
    have h2 : idx[j] ∈ idx := List.getElem_mem hj
    rw [S.right] at h2 ⊢
    exact ⟨by omega, h.right _ _ (by omega) (by omega) (by omega) h2.2⟩

theorem windowInside_iff (N : Num Dbl Cpx) (rho w : List Dbl) (n : Nat) :
    WindowInside N rho w n ↔ LegalLeft N rho w n ∧ LegalRight N rho w n := by
  constructor
  · rintro ⟨r, ω, f, g, a1, a2, a3, a4, a5, a6⟩
    exact ⟨⟨r, ω, f, a1, a2, a3, a5⟩, ⟨r, ω, g, a1, a2, a4, a6⟩⟩
  · rintro ⟨⟨r, ω, f, a1, a2, a3, a5⟩, ⟨r', ω', g, b1, b2, a4, a6⟩⟩
    rw [a1] at b1; cases b1
    rw [a2] at b2; cases b2
    exact ⟨r, ω, f, g, a1, a2, a3, a4, a5, a6⟩

/-- A requested point whose window lies strictly inside the data. -/
def Usable (N : Num Dbl Cpx) (t : TauD) (rho w : List Dbl) (n : Nat) : Prop :=
  (∃ r, rho[n]? = some r ∧ t.range0.le r = true ∧ r.le t.range1 = true) ∧ WindowInside N rho w n

theorem Selected.usable {N : Num Dbl Cpx} {L : Lib} {l : List Dbl} {t u : TauD} {s m i : Nat}
    {x0 x1 : Dbl} {w : List Dbl} {idx : List Nat} (S : Selected N L l t u s m i x0 x1 w idx)
    (hl : l.length = t.arrSize) (ha : Ascending l) (hr : t.range0.isNaN = false)
    (he : EndsAscend N t.range0 t.range1 l w) (n : Nat) :
    Usable N t l w n ↔ s + i ≤ n ∧ n < s + i + idx.length := by
  have hc := S.closed hl ha hr he
  have h1 := S.fits
  have h2 := S.idx_le
  have h4 := S.i_lt
  rw [Usable, windowInside_iff]
  constructor
  · rintro ⟨⟨r, a1, a2⟩, a3, a4⟩
    obtain ⟨b1, b2⟩ := (S.requested hl ha hr a1).2 a2
    have b3 : s + i ≤ n := by
      by_contra hlt
      refine S.left_cut (n - s) (by omega) ?_
      rwa [show s + (n - s) = n from by omega]
    refine ⟨b3, ?_⟩
    have := (S.mem_idx hc (n - (s + i))).1 ((S.right _).2 ⟨by omega, by
      rwa [show s + i + (n - (s + i)) = n from by omega]⟩)
    omega
  · rintro ⟨b1, b2⟩
    have hn : n < l.length := by omega
    refine ⟨⟨l[n], by simp [hn], (S.requested hl ha hr (n := n) (by simp [hn])).1 ⟨by omega, by omega⟩⟩,
      hc.left _ _ (by omega) b1 (by omega) S.left, ?_⟩
    have := ((S.right _).1 ((S.mem_idx hc (n - (s + i))).2 (by omega))).2
    rwa [show s + i + (n - (s + i)) = n from by omega] at this

/-- **C11** as far as it holds: if the window ends ascend with the radius, the
processing range consists of exactly those usable points that are followed by
another usable point.  Missing from "all usable points": the last one (see
`C11_last_dropped`). -/
theorem C11_maximal_partial (N : Num Dbl Cpx) (L : Lib) (t u : TauD) (rho F k v w : List Dbl)
    (d : RangeData t rho F k v) (ha : Ascending rho) (hr : t.range0.isNaN = false)
    (e : getWindowWidth N L t = .ok u) (hu : u.err = none) (hw : u.arr .w = some w)
    (he : EndsAscend N t.range0 t.range1 rho w) (n : Nat) :
    InRange u n ↔ Usable N t rho w n ∧ ∃ b, n < b ∧ Usable N t rho w b := by
  obtain ⟨s, m, i, x0, x1, w', idx, S⟩ := d.selected e hu
  obtain rfl := S.result
  have : w' = w := by simpa [Tau.setArr] using hw
  subst this
  have h3 := S.idx_pos
  simp only [S.usable d.lrho ha hr he]
  show (s + i ≤ n ∧ n < s + i + (idx.length - 1)) ↔ _
  constructor
  · rintro ⟨q1, q2⟩
    exact ⟨⟨q1, by omega⟩, s + i + (idx.length - 1), by omega, by omega, by omega⟩
  · rintro ⟨⟨q1, q2⟩, b, q3, q4, q5⟩
    exact ⟨q1, by omega⟩

/-- **C11** fails every time: the point right after the processing range is usable
but was dropped. -/
theorem C11_last_dropped (N : Num Dbl Cpx) (L : Lib) (t u : TauD) (rho F k v w : List Dbl)
    (d : RangeData t rho F k v) (ha : Ascending rho) (hr : t.range0.isNaN = false)
    (e : getWindowWidth N L t = .ok u) (hu : u.err = none) (hw : u.arr .w = some w)
    (he : EndsAscend N t.range0 t.range1 rho w) :
    Usable N t rho w (u.start + u.nUsed) ∧ ¬ InRange u (u.start + u.nUsed) := by
  obtain ⟨s, m, i, x0, x1, w', idx, S⟩ := d.selected e hu
  obtain rfl := S.result
  have : w' = w := by simpa [Tau.setArr] using hw
  subst this
  have h3 := S.idx_pos
  simp only [S.usable d.lrho ha hr he]
  refine ⟨?_, fun h => by have := h.2; omega⟩
  show s + i ≤ s + i + (idx.length - 1) ∧ s + i + (idx.length - 1) < s + i + idx.length
  omega

/-! ### C12 -/

/-- **C12** without the b-factor: the width of every row of the processing range is
computed from the Fresnel scale of the same row. -/
theorem C12_plain_width (N : Num Dbl Cpx) (L : Lib) (t u : TauD) (rho F k v w : List Dbl)
    (d : RangeData t rho F k v) (hb : t.bfac = false)
    (e : getWindowWidth N L t = .ok u) (hu : u.err = none) (hw : u.arr .w = some w)
    (n : Nat) (hn : InRange u n) (f : Dbl) (hf : F[n]? = some f) :
    w[n]? = some (plainWidth N t f) := by
  obtain ⟨s, m, i, x0, x1, w', idx, S⟩ := d.selected e hu
  obtain rfl := S.result
  have : w' = w := by simpa [Tau.setArr] using hw
  subst this
  have h1 := S.fits
  have h2 := S.idx_le
  have h4 := S.i_lt
  have hn1 : s + i ≤ n := hn.1
  have hn2 : n < s + i + (idx.length - 1) := hn.2
  have hW := S.widths
  have hlF := d.lF
  obtain ⟨w2, e2, -, -, hv⟩ := widthsPlain_spec N (t := located t x0 x1 s m) (F := F) d.hF
    (N.div t.normeq t.res) m 0 (List.replicate t.arrSize (.fin 0))
    (by show 0 + m + s ≤ _; omega) (by show 0 + m + s ≤ _; simp; omega)
  have hb' : (located t x0 x1 s m).bfac = false := hb
  rw [gwwWidths, hb'] at hW
  simp only [Bool.false_eq_true, if_false] at hW
  have : w2 = w' := by
    have e2' : widthsPlain N (located t x0 x1 s m)
      (N.div (located t x0 x1 s m).normeq (located t x0 x1 s m).res) 0
      (located t x0 x1 s m).nUsed (List.replicate (located t x0 x1 s m).arrSize (Dbl.fin 0))
        = .ok w2 := e2
    rw [e2', Res.ok_bind] at hW
    have := congrArg (fun x : Res TauD => match x with | .ok a => a.arr .w | .ub _ => none) hW
    simpa [Tau.setArr] using this
  subst this
  exact hv n f (by show 0 + s ≤ n; omega) (by show n < 0 + m + s; omega) hf

theorem whereIdx_all (p : Dbl → Bool) : ∀ (l : List Dbl) (k : Nat), (∀ x ∈ l, p x = true) →
    whereIdx p l k = List.range' k l.length := by
  intro l
  induction l with
  | nil => intro k _; rfl
  | cons a l ih =>
    intro k h
    rw [whereIdx, if_pos (h a (by simp)), ih (k + 1) (fun x hx => h x (by simp [hx])),
      List.length_cons, List.range'_succ]

/-- **C12** with the b-factor, as far as it holds: if the requested range starts
at the first row and every requested row has `P > 1`, the width of every row of the
processing range is computed from the data of that row.  Missing: a requested
range that starts later (`C12_bfac_velocity_false`), and rows with `P <= 1`
(`C12_bfac_alpha_false`). -/
theorem C12_bfac_width_partial (N : Num Dbl Cpx) (L : Lib) (t u : TauD) (rho F k v w : List Dbl)
    (d : RangeData t rho F k v) (hb : t.bfac = true)
    (h0 : ∀ r, rho[0]? = some r → r.lt t.range0 = false)
    (hP : ∀ (j : Nat) (f κ ν : Dbl), F[j]? = some f → k[j]? = some κ → v[j]? = some ν →
      (Dbl.fin 1).lt (pOf N L t f κ ν) = true)
    (e : getWindowWidth N L t = .ok u) (hu : u.err = none) (hw : u.arr .w = some w)
    (n : Nat) (hn : InRange u n) (f κ ν : Dbl) (hf : F[n]? = some f) (hκ : k[n]? = some κ)
    (hν : v[n]? = some ν) :
    w[n]? = some (bfacWidth N L t f κ ν) := by
  obtain ⟨s, m, i, x0, x1, w', idx, S⟩ := d.selected e hu
  obtain rfl := S.result
  have : w' = w := by simpa [Tau.setArr] using hw
  subst this
  have h1 := S.fits
  have h2 := S.idx_le
  have h4 := S.i_lt
  have hn1 : s + i ≤ n := hn.1
  have hn2 : n < s + i + (idx.length - 1) := hn.2
  have hs : s = 0 := by
    by_contra hs
    have hr : 0 < rho.length := by rw [d.lrho]; have := d.size; omega
    have := S.before 0 rho[0] (by omega) (by simp [hr])
    rw [h0 _ (by simp [hr])] at this
    cases this
  subst hs
  have hW := S.widths
  have hlF := d.lF
  have hlk := d.lk
  have hlv := d.lv
  set t1 := located t x0 x1 0 m with ht1
  obtain ⟨rows, e1, hlen, hrow⟩ := bfacRows_spec N L (t := t1) (F := F) (k := k) (rd := v)
    d.hF d.hk d.hv m 0 (by show 0 + m + 0 ≤ _; omega) (by show 0 + m + 0 ≤ _; omega) (by omega)
  -- all rows are selected
  have hrow' : ∀ j f κ ν, j < m → F[j]? = some f → k[j]? = some κ → v[j]? = some ν →
      rows[j]? = some (alphaOf N L t κ ν, pOf N L t f κ ν) := by
    intro j f κ ν hj a1 a2 a3
    obtain ⟨q, q1, q2, q3⟩ := hrow j f κ ν hj (by rw [← a1]; show F[0 + j + 0]? = _; simp)
      (by rw [← a2]; show k[0 + j + 0]? = _; simp) (by rw [← a3]; simp)
    rw [q1]
    have : q.1 = alphaOf N L t κ ν := q2
    rw [this] at q3
    exact congrArg some (Prod.ext this q3)
  have hJ : whereIdx (fun p => p.gt (Dbl.fin 1)) (rows.map Prod.snd) 0 = List.range' 0 m := by
    rw [← hlen, ← List.length_map (as := rows) Prod.snd]
    refine whereIdx_all _ _ _ fun x hx => ?_
    obtain ⟨j, hj⟩ := List.mem_iff_getElem?.1 hx
    have hjm : j < m := by
      have := (List.getElem?_eq_some_iff.1 hj).1
      simpa [hlen] using this
    have b1 : j < F.length := by omega
    have b2 : j < k.length := by omega
    have b3 : j < v.length := by omega
    have := hrow' j F[j] k[j] v[j] hjm (by simp [b1]) (by simp [b2]) (by simp [b3])
    rw [List.getElem?_map, this] at hj
    have hj : pOf N L t F[j] k[j] v[j] = x := by simpa using hj
    rw [← hj]
    exact hP j _ _ _ (by simp [b1]) (by simp [b2]) (by simp [b3])
  obtain ⟨w2, e2, -, -, hval⟩ := bfacStore_spec N (t := t1) (rows := rows) (List.range' 0 m) 0
    (List.replicate t.arrSize (.fin 0)) (List.pairwise_lt_range' ..)
    (fun i hi => by have := (List.mem_range'_1.1 hi).2; omega) (by simp [hlen])
    (fun i hi => by
      have := (List.mem_range'_1.1 hi).2
      show 0 + i < _
      simp; omega)
  have : w2 = w' := by
    have e3 : widthsBfac N L t1 (List.replicate t1.arrSize (Dbl.fin 0)) = .ok w2 := by
      rw [widthsBfac]
      have e1' : bfacRows N L t1 0 t1.nUsed = .ok rows := e1
      rw [e1', Res.ok_bind]
      simp only [hJ]
      exact e2
    have hb' : t1.bfac = true := hb
    rw [gwwWidths, hb'] at hW
    simp only [if_true] at hW
    rw [e3, Res.ok_bind] at hW
    have := congrArg (fun x : Res TauD => match x with | .ok a => a.arr .w | .ub _ => none) hW
    simpa [Tau.setArr] using this
  subst this
  obtain ⟨P, al, p1, p2, p3⟩ := hval n n (by
    rw [List.getElem?_range' (by omega)]; simp)
  have hr := hrow' n f κ ν (by omega) hf hκ hν
  rw [hr] at p1
  rw [Nat.zero_add, hr] at p2
  cases p1; cases p2
  have p4 : w2[0 + n]? = some (bfacWidth N L t f κ ν) := p3
  rwa [Nat.zero_add] at p4

/-! ### C10 -/

theorem dataRangeLoop_none {N : Num Dbl Cpx} {t : TauD} {rcpr : Dbl} :
    ∀ (cnt n : Nat), dataRangeLoop N t rcpr n cnt = .ok none → ∀ a, n ≤ a → a < n + cnt →
      ∃ ω nw, rdP (t.arr .w) a = .ok ω ∧ (N.mul ω rcpr).toSize = .ok nw ∧ nw ≤ a ∧
        a + nw ≤ t.arrSize := by
  intro cnt
  induction cnt with
  | zero => intro n _ a h1 h2; omega
  | succ cnt ih =>
    intro n e a h1 h2
    rw [dataRangeLoop, Res.bind_eq_ok] at e
    obtain ⟨ω, e1, e⟩ := e
    rw [Res.bind_eq_ok] at e
    obtain ⟨nw, e2, e⟩ := e
    split at e
    · cases e
    split at e
    · cases e
    rcases Nat.eq_or_lt_of_le h1 with rfl | h
    · exact ⟨ω, nw, e1, e2, by omega, by omega⟩
    · exact ih (n + 1) e a (by omega) (by omega)

/-- **C10** as far as it holds, for every arithmetic: once `Check_Data_Range` has
accepted the object, the window of every row of the processing range (with the
number of points that function computes) begins inside the arrays and ends at most
one row behind the last one.  Missing: that it ends inside (`C10_window_fits_false`). -/
theorem C10_window_fits_partial (N : Num Dbl Cpx) (t u : TauD) (w : List Dbl) (h : t.err = none)
    (hw : t.arr .w = some w) (e : checkDataRange N t = .ok u) (hu : u.err = none) (n : Nat)
    (hn : InRange t n) :
    ∃ ω nw, w[n]? = some ω ∧ (N.mul ω (N.div (N.lit (1/2)) t.dx)).toSize = .ok nw ∧
      nw ≤ n ∧ n + nw ≤ t.arrSize := by
  rcases checkDataRange_cases N h e with ⟨l, rfl⟩ | ⟨-, -, -, h2⟩
  · simp at hu
  · obtain ⟨ω, nw, e1, e2, h3⟩ := dataRangeLoop_none _ _ h2 n hn.1 hn.2
    refine ⟨ω, nw, ?_, e2, h3⟩
    rw [hw] at e1
    simpa [rdP, rd_eq_ok] using e1

/-- **C10** for evenly spaced radii and arithmetic without rounding, when the window
ends ascend: every window of the processing range lies strictly inside the arrays,
on both sides. -/
theorem C10_even_fits (N : Num Dbl Cpx) (hN : N.ExactOps) (L : Lib) (t u : TauD)
    (rho F k v w : List Dbl) (d : RangeData t rho F k v) (r0 δ : ℚ) (hδ : 0 < δ)
    (heven : ∀ (j : Nat) (r : Dbl), rho[j]? = some r → r = .fin (r0 + δ * j)) (hdx : t.dx = .fin δ)
    (hr : t.range0.isNaN = false)
    (e : getWindowWidth N L t = .ok u) (hu : u.err = none) (hw : u.arr .w = some w)
    (he : EndsAscend N t.range0 t.range1 rho w) (n : Nat) (hn : InRange u n) (q : ℚ)
    (hq : w[n]? = some (.fin q)) (nw : Nat)
    (hnw : (N.mul (.fin q) (N.div (N.lit (1/2)) t.dx)).toSize = .ok nw) :
    nw ≤ n ∧ n + nw < t.arrSize := by
  have ha : Ascending rho := by
    intro i j x y hij hi hj
    rw [heven i x hi, heven j y hj]
    have : (i : ℚ) ≤ j := by exact_mod_cast hij
    simp only [Dbl.le_fin, decide_eq_true_eq]
    nlinarith
  obtain ⟨s, m, i, x0, x1, w', idx, S⟩ := d.selected e hu
  obtain rfl := S.result
  have : w' = w := by simpa [Tau.setArr] using hw
  subst this
  have h3 := S.idx_pos
  have hn1 : s + i ≤ n := hn.1
  have hn2 : n < s + i + (idx.length - 1) := hn.2
  obtain ⟨-, hin⟩ := (S.usable d.lrho ha hr he n).2 ⟨hn1, by omega⟩
  obtain ⟨r, ω, f, g, a1, a2, a3, a4, a5, a6⟩ := hin
  rw [hq] at a2; cases a2
  have hA := d.size
  have hl := d.lrho
  rw [heven _ _ a1, heven _ _ a3, hN.lit, hN.mul, hN.sub, Dbl.lt_fin, decide_eq_true_eq] at a5
  rw [heven _ _ a1, heven _ _ a4, hN.lit, hN.mul, hN.add, Dbl.lt_fin, decide_eq_true_eq] at a6
  rw [hdx, hN.lit, hN.div _ _ hδ.ne', hN.mul, Dbl.toSize] at hnw
  split at hnw
  swap; · cases hnw
  cases hnw
  set x : ℚ := q * (1 / 2 / δ) with hx
  have hqx : q = 2 * δ * x := by rw [hx]; field_simp
  rw [hqx] at a5 a6
  have b1 : x < n := by
    by_contra hc
    push_neg at hc
    push_cast at a5
    nlinarith
  have b2 : x < ((t.arrSize - 1 - n : ℤ) : ℚ) := by
    by_contra hc
    push_neg at hc
    rw [hl, Nat.cast_sub (by omega)] at a6
    push_cast at a6 hc
    nlinarith
  have c1 : ⌊x⌋ < (n : ℤ) := by rw [Int.floor_lt]; exact_mod_cast b1
  have c2 : ⌊x⌋ < (t.arrSize - 1 - n : ℤ) := by rw [Int.floor_lt]; exact b2
  have hfl : x.floor = ⌊x⌋ := rfl
  have hnlt : n < t.arrSize := by
    have := (List.getElem?_eq_some_iff.1 a1).1
    omega
  rw [hfl]
  omega

/-! ### Witnesses -/

/-- Ten rows; the velocities and the lower limit are parameters. -/
def winTau (rho v : List Dbl) (lo dx : Dbl) (b : Bool) : TauD :=
  { tauInit exactLib with
    arrSize := 10
    dx := dx
    range0 := lo
    range1 := .fin 100
    sigma := .fin 2
    res := .fin 4
    normeq := .fin 2
    bfac := b
    arr := fun f => match f with
      | .rho => some rho
      | .rhoDot => some v
      | .w => none
      | _ => some (List.replicate 10 (.fin 1))
    carr := fun _ => none }

/-- `exactLib` with unit speed of light. -/
def unitLib : Lib := { exactLib with speedOfLight := .fin 1 }

/-- Radii 10, 11, ..., 19. -/
def tenRadii : List Dbl := (List.range 10).map fun n : Nat => Dbl.fin (10 + (n : ℚ))

theorem tenRadii_get {i : Nat} {x : Dbl} (h : tenRadii[i]? = some x) : x = Dbl.fin (10 + (i : ℚ)) := by
  obtain ⟨hi, rfl⟩ := List.getElem?_eq_some_iff.1 h
  simp [tenRadii]

theorem winTau_data (rho v : List Dbl) (lo dx : Dbl) (b : Bool) (h : rho.length = 10)
    (h' : v.length = 10) :
    RangeData (winTau rho v lo dx b) rho (List.replicate 10 (.fin 1))
      (List.replicate 10 (.fin 1)) v :=
  ⟨rfl, rfl, rfl, rfl, rfl, h, rfl, rfl, h', by show 1 < 10; decide⟩

/-- Velocity 1 except 3/2 in row 1. -/
def bumpV : List Dbl := [.fin 1, .fin (3/2), .fin 1, .fin 1, .fin 1, .fin 1, .fin 1, .fin 1,
  .fin 1, .fin 1]

/-- **C12** with the b-factor is false: when the requested range starts at row 1,
the width of row 2 is computed with the velocity of row 1. -/
theorem C12_bfac_velocity_false :
    ¬ ∀ (t u : TauD) (rho F k v w : List Dbl), RangeData t rho F k v → t.bfac = true →
      (∀ (j : Nat) (f κ ν : Dbl), F[j]? = some f → k[j]? = some κ → v[j]? = some ν →
        (Dbl.fin 1).lt (pOf exactNum unitLib t f κ ν) = true) →
      getWindowWidth exactNum unitLib t = .ok u → u.err = none → u.arr .w = some w →
      ∀ n f κ ν, InRange u n → F[n]? = some f → k[n]? = some κ → v[n]? = some ν →
        w[n]? = some (bfacWidth exactNum unitLib t f κ ν) := by
  intro hall
  obtain ⟨u, e, hu⟩ := Res.of_test
    (x := getWindowWidth exactNum unitLib (winTau tenRadii bumpV (.fin 11) (.fin 1) true))
    (p := fun u => u.err == none && decide (u.start ≤ 2 ∧ 2 < u.start + u.nUsed) &&
      ((u.arr .w).bind (fun w => w[2]?) == some (.fin 3))) (by decide +kernel)
  simp only [Bool.and_eq_true, beq_iff_eq, decide_eq_true_eq] at hu
  obtain ⟨⟨h1, h2⟩, h3⟩ := hu
  cases hw : u.arr .w with
  | none => rw [hw] at h3; cases h3
  | some w =>
    rw [hw] at h3
    have hP : ∀ (j : Nat) (f κ ν : Dbl), (List.replicate 10 (Dbl.fin 1))[j]? = some f →
        (List.replicate 10 (Dbl.fin 1))[j]? = some κ → bumpV[j]? = some ν →
        (Dbl.fin 1).lt (pOf exactNum unitLib
          (winTau tenRadii bumpV (.fin 11) (.fin 1) true) f κ ν) = true := by
      intro j f κ ν a1 a2 a3
      obtain rfl := List.eq_of_mem_replicate (List.mem_of_getElem? a1)
      obtain rfl := List.eq_of_mem_replicate (List.mem_of_getElem? a2)
      have := List.mem_of_getElem? a3
      simp [bumpV] at this
      rcases this with rfl | rfl | rfl <;> decide +kernel
    have := hall _ u _ _ _ _ w (winTau_data tenRadii bumpV (.fin 11) (.fin 1) true rfl rfl) rfl hP e h1 hw
      2 (.fin 1) (.fin 1) (.fin 1) h2 rfl rfl rfl
    have h3' : w[2]? = some (.fin 3) := h3
    rw [h3'] at this
    revert this
    decide +kernel

/-- Velocity 1 except 1/4 in row 0. -/
def slowV : List Dbl := [.fin (1/4), .fin 1, .fin 1, .fin 1, .fin 1, .fin 1, .fin 1, .fin 1,
  .fin 1, .fin 1]

/-- **C12** with the b-factor is false even if the requested range starts at row 0:
when row 0 has `P <= 1`, the width of row 1 is computed with `alpha` of row 0. -/
theorem C12_bfac_alpha_false :
    ¬ ∀ (t u : TauD) (rho F k v w : List Dbl), RangeData t rho F k v → t.bfac = true →
      (∀ r, rho[0]? = some r → r.lt t.range0 = false) →
      getWindowWidth exactNum unitLib t = .ok u → u.err = none → u.arr .w = some w →
      ∀ n f κ ν, InRange u n → F[n]? = some f → k[n]? = some κ → v[n]? = some ν →
        (Dbl.fin 1).lt (pOf exactNum unitLib t f κ ν) = true →
        w[n]? = some (bfacWidth exactNum unitLib t f κ ν) := by
  intro hall
  obtain ⟨u, e, hu⟩ := Res.of_test
    (x := getWindowWidth exactNum unitLib (winTau tenRadii slowV (.fin 10) (.fin 1) true))
    (p := fun u => u.err == none && decide (u.start ≤ 1 ∧ 1 < u.start + u.nUsed) &&
      ((u.arr .w).bind (fun w => w[1]?) == some (.fin (1/4)))) (by decide +kernel)
  simp only [Bool.and_eq_true, beq_iff_eq, decide_eq_true_eq] at hu
  obtain ⟨⟨h1, h2⟩, h3⟩ := hu
  cases hw : u.arr .w with
  | none => rw [hw] at h3; cases h3
  | some w =>
    rw [hw] at h3
    have := hall _ u _ _ _ _ w (winTau_data tenRadii slowV (.fin 10) (.fin 1) true rfl rfl) rfl
      (by intro r hr; cases hr; decide +kernel) e h1 hw
      1 (.fin 1) (.fin 1) (.fin 1) h2 rfl rfl rfl (by decide +kernel)
    have h3' : w[1]? = some (.fin (1/4)) := h3
    rw [h3'] at this
    revert this
    decide +kernel

/-- Constant velocity 1. -/
def flatV : List Dbl := List.replicate 10 (.fin 1)

/-- First spacing 1/4 (this becomes `dx`), then 1. -/
def unevenRadii : List Dbl :=
  [.fin 10, .fin (41/4), .fin (45/4), .fin (49/4), .fin (53/4), .fin (57/4), .fin (61/4),
   .fin (65/4), .fin (69/4), .fin (73/4)]

/-- **C10** is false: an object accepted by both functions whose window at a row of
the processing range contains the index `arr_size` (sampling that is not even). -/
theorem C10_window_fits_false :
    ¬ ∀ (t u u' : TauD) (rho F k v w : List Dbl), RangeData t rho F k v → Ascending rho →
      getWindowWidth exactNum unitLib t = .ok u → checkDataRange exactNum u = .ok u' →
      u'.err = none → u'.arr .w = some w →
      ∀ n ω nw, InRange u' n → w[n]? = some ω →
        (exactNum.mul ω (exactNum.div (exactNum.lit (1/2)) u'.dx)).toSize = .ok nw →
        n + nw < u'.arrSize := by
  intro hall
  let t0 : TauD := { winTau unevenRadii flatV (.fin 13) (.fin (1/4)) false with res := .fin 2 }
  obtain ⟨p, e, hp⟩ := Res.of_test
    (x := getWindowWidth exactNum unitLib t0 >>= fun u => checkDataRange exactNum u >>= fun u' =>
      Res.ok (u, u'))
    (p := fun p => p.2.err == none && decide (p.2.start ≤ 6 ∧ 6 < p.2.start + p.2.nUsed) &&
      ((p.2.arr .w).bind (fun w => w[6]?) == some (.fin 2)) && p.2.arrSize == 10 &&
      p.2.dx == .fin (1/4)) (by decide +kernel)
  simp only [Bool.and_eq_true, beq_iff_eq, decide_eq_true_eq] at hp
  obtain ⟨⟨⟨⟨h1, h2⟩, h3⟩, h4⟩, h5⟩ := hp
  rw [Res.bind_eq_ok] at e
  obtain ⟨u, e1, e⟩ := e
  rw [Res.bind_eq_ok] at e
  obtain ⟨u', e2, e⟩ := e
  cases e
  cases hw : u'.arr .w with
  | none => simp only [hw] at h3; cases h3
  | some w =>
    simp only [hw] at h3
    have ha : Ascending unevenRadii := by
      have : unevenRadii.Pairwise (fun a b => a.le b = true) := by decide +kernel
      intro i j x y hij hi hj
      obtain ⟨hi', rfl⟩ := List.getElem?_eq_some_iff.1 hi
      obtain ⟨hj', rfl⟩ := List.getElem?_eq_some_iff.1 hj
      rcases Nat.eq_or_lt_of_le hij with rfl | h
      · apply Dbl.le_refl
        have : ∀ x ∈ unevenRadii, x.isNaN = false := by decide +kernel
        exact this _ (List.getElem_mem _)
      · exact List.pairwise_iff_getElem.1 this i j hi' hj' h
    have := hall t0 u u' unevenRadii flatV flatV flatV w
      ⟨rfl, rfl, rfl, rfl, rfl, rfl, rfl, rfl, rfl, by show 1 < 10; decide⟩ ha e1 e2 h1 hw 6 (.fin 2) 4
      h2 h3 (by simp only at h5; rw [h5]; decide +kernel)
    simp only at h4
    omega

/-- Non-vacuity of C09, C11 and C12: a profile that succeeds with a non-empty
processing range (`C12_bfac_width_partial`: all `P > 1`, range starting at row 0). -/
example : ∃ u, getWindowWidth exactNum unitLib (winTau tenRadii flatV (.fin 10) (.fin 1) true)
      = .ok u ∧ u.err = none ∧ InRange u 2 ∧ RangeData (winTau tenRadii flatV (.fin 10) (.fin 1) true)
        tenRadii flatV flatV flatV ∧ Ascending tenRadii := by
  obtain ⟨u, e, hu⟩ := Res.of_test
    (x := getWindowWidth exactNum unitLib (winTau tenRadii flatV (.fin 10) (.fin 1) true))
    (p := fun u => u.err == none && decide (u.start ≤ 2 ∧ 2 < u.start + u.nUsed))
    (by decide +kernel)
  simp only [Bool.and_eq_true, beq_iff_eq, decide_eq_true_eq] at hu
  refine ⟨u, e, hu.1, hu.2, winTau_data _ _ _ _ _ rfl rfl, ?_⟩
  intro i j x y hij hi hj
  rw [tenRadii_get hi, tenRadii_get hj]
  simpa using hij

/-- Non-vacuity of C10 and C11: constant widths, ascending window ends, and
`Check_Data_Range` accepts. -/
example : ∃ u w, getWindowWidth exactNum unitLib (winTau tenRadii flatV (.fin 10) (.fin 1) false)
      = .ok u ∧ u.err = none ∧ u.arr .w = some w ∧ InRange u 3 ∧ checkDataRange exactNum u = .ok u ∧
      EndsAscend exactNum (.fin 10) (.fin 100) tenRadii w ∧
      (∀ (j : Nat) (r : Dbl), tenRadii[j]? = some r → r = .fin (10 + 1 * j)) := by
  obtain ⟨u, e, hu⟩ := Res.of_test
    (x := getWindowWidth exactNum unitLib (winTau tenRadii flatV (.fin 10) (.fin 1) false))
    (p := fun u => u.err == none && decide (u.start ≤ 3 ∧ 3 < u.start + u.nUsed) &&
      u.arr .w == some (List.replicate 10 (.fin 1)) &&
      (match checkDataRange exactNum u with | .ok u' => u'.err == none | .ub _ => false))
    (by decide +kernel)
  simp only [Bool.and_eq_true, beq_iff_eq, decide_eq_true_eq] at hu
  obtain ⟨⟨⟨h1, h2⟩, h3⟩, h4⟩ := hu
  refine ⟨u, _, e, h1, h3, h2, ?_, ?_, ?_⟩
  · cases e2 : checkDataRange exactNum u with
    | ub a => rw [e2] at h4; cases h4
    | ok u' =>
      rw [e2] at h4
      rcases checkDataRange_cases exactNum h1 e2 with ⟨l, rfl⟩ | ⟨rfl, -⟩
      · simp at h4
      · rfl
  · intro a b ra rb wa wb hab q1 q2 _ _ _ _ q3 q4
    rw [tenRadii_get q1, tenRadii_get q2, List.eq_of_mem_replicate (List.mem_of_getElem? q3),
      List.eq_of_mem_replicate (List.mem_of_getElem? q4)]
    have : (a : ℚ) ≤ b := by exact_mod_cast hab
    simp [exactNum, Dbl.op, this]
  · intro j r h
    rw [tenRadii_get h, one_mul]

end Verif
