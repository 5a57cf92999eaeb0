import Verif.Model.Window
import Verif.Proofs.Loop
import Verif.Proofs.Guard

/-! Lemmas about `getWindowWidth`. -/
namespace Verif

/-- The part of `getWindowWidth` after the requested range has been located. -/
def gwwRest (N : Num Dbl Cpx) (L : Lib) (t : TauD) : Res TauD :=
  if (t.arr .w).isSome then .ok (t.fail .getWindowWidth 85)
  else do
    let t ← gwwWidths N L t
    match ← cutLeft N t with
    | .stop t => .ok t
    | .go t =>
      match ← cutRight N t with
      | .stop t => .ok t
      | .go t =>
        if t.start > t.arrSize then .ok (t.fail .getWindowWidth 215)
        else if t.start + t.nUsed > t.arrSize then .ok (t.fail .getWindowWidth 226)
        else .ok t

theorem getWindowWidth_eq (N : Num Dbl Cpx) (L : Lib) {t : TauD} (h : t.err = none) :
    getWindowWidth N L t = (do
      match ← gwwStart t with
      | .stop t => .ok t
      | .go t =>
        match ← gwwEnd t with
        | .stop t => .ok t
        | .go t => gwwRest N L t) := by
  rw [getWindowWidth, guarded_none _ h]; rfl

/-- What the error of the rest can be. -/
theorem gwwRest_err (N : Num Dbl Cpx) (L : Lib) {t u : TauD} (h : t.err = none)
    (e : gwwRest N L t = .ok u) :
    u.err = none ∨ ∃ l, u.err = some ⟨.getWindowWidth, l⟩ ∧ l ∈ [85, 157, 195, 215, 226] := by
  unfold gwwRest at e
  split at e
  · cases e; exact .inr ⟨_, rfl, by simp⟩
  rw [Res.bind_eq_ok] at e
  obtain ⟨t1, e1, e⟩ := e
  have h1 : t1.err = none := by
    unfold gwwWidths at e1
    rw [Res.bind_eq_ok] at e1
    obtain ⟨w, -, e1⟩ := e1
    cases e1; exact h
  rw [Res.bind_eq_ok] at e
  obtain ⟨s1, e2, e⟩ := e
  have hs1 : ∀ v, s1 = .go v → v.err = none := by
    rintro v rfl
    unfold cutLeft at e2
    simp only [Res.bind_eq_ok] at e2
    obtain ⟨a, -, b, -, e2⟩ := e2
    split at e2
    · cases e2
    · split at e2 <;> cases e2 <;> exact h1
  cases s1 with
  | stop v =>
    cases e
    unfold cutLeft at e2
    simp only [Res.bind_eq_ok] at e2
    obtain ⟨a, -, b, -, e2⟩ := e2
    split at e2
    · cases e2; exact .inr ⟨157, rfl, by simp⟩
    · split at e2 <;> cases e2
  | go v =>
    have hv := hs1 v rfl
    simp only [Res.bind_eq_ok] at e
    obtain ⟨s2, e3, e⟩ := e
    unfold cutRight at e3
    simp only [Res.bind_eq_ok] at e3
    obtain ⟨a, -, b, -, c, -, e3⟩ := e3
    split at e3
    · cases e3; cases e; exact .inr ⟨195, rfl, by simp⟩
    · have : ∃ x, s2 = .go x ∧ x.err = none := by
        split at e3 <;> cases e3
        · exact ⟨_, rfl, hv⟩
        · exact ⟨_, rfl, hv⟩
      obtain ⟨x, rfl, hx⟩ := this
      simp only [] at e
      split at e
      · cases e; exact .inr ⟨215, rfl, by simp⟩
      · split at e
        · cases e; exact .inr ⟨226, rfl, by simp⟩
        · cases e; exact .inl hx

/-! ### Scans -/

theorem scanFrom_spec (p : Dbl → Bool) : ∀ (l : List Dbl) (n q : Nat) (x : Dbl),
    l[q]? = some x → p x = false →
    ∃ k y, scanFrom p l n = .ok (n + k) ∧ k ≤ q ∧ l[k]? = some y ∧ p y = false ∧
      ∀ j z, j < k → l[j]? = some z → p z = true := by
  intro l
  induction l with
  | nil => intro n q x h; simp at h
  | cons a l ih =>
    intro n q x hq hx
    rw [scanFrom]
    by_cases ha : p a = true
    · rw [if_pos ha]
      cases q with
      | zero => simp at hq; subst hq; rw [ha] at hx; cases hx
      | succ q =>
        obtain ⟨k, y, e, hk, hy, hpy, hlt⟩ := ih (n + 1) q x (by simpa using hq) hx
        refine ⟨k + 1, y, by rw [e]; congr 1; omega, by omega, by simpa using hy, hpy, ?_⟩
        intro j z hj hz
        cases j with
        | zero => simp at hz; subst hz; exact ha
        | succ j => exact hlt j z (by omega) (by simpa using hz)
    · rw [if_neg ha]
      exact ⟨0, a, rfl, by omega, by simp, by simpa using ha, by omega⟩

theorem scanP_spec (p : Dbl → Bool) (l : List Dbl) (s q : Nat) (x : Dbl) (hs : s ≤ q)
    (hq : l[q]? = some x) (hx : p x = false) :
    ∃ n y, scanP p (some l) s = .ok n ∧ s ≤ n ∧ n ≤ q ∧ l[n]? = some y ∧ p y = false ∧
      ∀ j z, s ≤ j → j < n → l[j]? = some z → p z = true := by
  have h' : (l.drop s)[q - s]? = some x := by
    rw [List.getElem?_drop, show s + (q - s) = q by omega]; exact hq
  obtain ⟨k, y, e, hk, hy, hpy, hlt⟩ := scanFrom_spec p (l.drop s) s (q - s) x h' hx
  refine ⟨s + k, y, e, by omega, by omega, by rw [List.getElem?_drop] at hy; exact hy, hpy, ?_⟩
  intro j z h1 h2 hz
  exact hlt (j - s) z (by omega) (by rw [List.getElem?_drop, show s + (j - s) = j by omega]; exact hz)

/-! ### Locating the requested range -/

theorem gwwStart_spec {t : TauD} {l : List Dbl} (hr : t.arr .rho = some l)
    (hl : l.length = t.arrSize) (hs : 0 < t.arrSize) :
    (∃ n, gwwStart t = .ok (.stop (t.fail .getWindowWidth n))) ∨
    ∃ s x, gwwStart t = .ok (.go { t with range0 := x, start := s }) ∧ l[s]? = some x ∧
      x.lt t.range0 = false ∧ (t.range0.isNaN = false → x.isNaN = false → t.range0.le x = true) ∧
      ∀ j z, j < s → l[j]? = some z → z.lt t.range0 = true := by
  have h0 : (0 : Nat) < l.length := by omega
  have hlast : t.arrSize - 1 < l.length := by omega
  rw [gwwStart, hr]
  simp only [rdP_some, rd_lt h0, Res.ok_bind]
  by_cases h1 : t.range0.le l[0] = true
  · rw [if_pos h1]
    exact .inr ⟨0, l[0], rfl, by simp, Dbl.not_lt_of_le h1, fun _ _ => h1, by omega⟩
  · rw [if_neg h1, subIdx, if_pos (by omega)]
    simp only [Res.ok_bind, rd_lt hlast]
    by_cases h2 : t.range0.gt (l[t.arrSize - 1]) = true
    · rw [if_pos h2]; exact .inl ⟨_, rfl⟩
    · rw [if_neg h2]
      obtain ⟨n, y, e, -, hn, hy, hpy, hlt⟩ := scanP_spec (fun r => r.lt t.range0) l 0
        (t.arrSize - 1) l[t.arrSize - 1] (by omega) (by simp [hlast]) (by simpa [Dbl.gt] using h2)
      have hnl : n < l.length := by omega
      have hyn : l[n] = y := by simpa [hnl] using hy
      rw [e, Res.ok_bind, rd_lt hnl, Res.ok_bind, hyn]
      exact .inr ⟨n, y, rfl, hy, hpy, fun a b => Dbl.le_of_not_lt b a hpy,
        fun j z hj hz => hlt j z (by omega) hj hz⟩

theorem gwwEnd_spec {t : TauD} {l : List Dbl} (hr : t.arr .rho = some l)
    (hl : l.length = t.arrSize) (hs : t.start < t.arrSize) :
    (∃ n, gwwEnd t = .ok (.stop (t.fail .getWindowWidth n))) ∨
    ∃ m x, gwwEnd t = .ok (.go { t with range1 := x, nUsed := m }) ∧ t.start + m ≤ t.arrSize ∧
      ((t.start + m = t.arrSize ∧ l[t.arrSize - 1]? = some x ∧ x.le t.range1 = true) ∨
       (t.start + m < t.arrSize ∧ l[t.start + m]? = some x ∧ x.le t.range1 = false ∧
        ∀ j z, t.start ≤ j → j < t.start + m → l[j]? = some z → z.le t.range1 = true)) := by
  have h0 : (0 : Nat) < l.length := by omega
  have hlast : t.arrSize - 1 < l.length := by omega
  rw [gwwEnd, hr, subIdx, if_pos (by omega)]
  simp only [rdP_some, rd_lt hlast, Res.ok_bind]
  by_cases h1 : t.range1.ge (l[t.arrSize - 1]) = true
  · rw [if_pos h1]
    exact .inr ⟨t.arrSize - t.start, l[t.arrSize - 1], rfl, by omega,
      .inl ⟨by omega, by simp [hlast], h1⟩⟩
  · rw [if_neg h1]
    simp only [rd_lt h0, Res.ok_bind]
    by_cases h2 : t.range1.lt l[0] = true
    · rw [if_pos h2]; exact .inl ⟨_, rfl⟩
    · rw [if_neg h2]
      obtain ⟨n, y, e, hsn, hn, hy, hpy, hlt⟩ := scanP_spec (fun r => r.le t.range1) l t.start
        (t.arrSize - 1) l[t.arrSize - 1] (by omega) (by simp [hlast]) (by simpa [Dbl.ge] using h1)
      have hnl : n < l.length := by omega
      have hyn : l[n] = y := by simpa [hnl] using hy
      rw [e, Res.ok_bind, rd_lt hnl, Res.ok_bind, hyn]
      refine .inr ⟨n - t.start, y, rfl, by omega, .inr ⟨by omega, ?_, hpy, ?_⟩⟩
      · rw [show t.start + (n - t.start) = n by omega]; exact hy
      · intro j z a b hz
        exact hlt j z a (by omega) hz

/-! ### `whereIdx` -/

theorem mem_whereIdx (p : Dbl → Bool) : ∀ (l : List Dbl) (k i : Nat),
    i ∈ whereIdx p l k ↔ k ≤ i ∧ ∃ x, l[i - k]? = some x ∧ p x = true := by
  intro l
  induction l with
  | nil => intro k i; simp [whereIdx]
  | cons a l ih =>
    intro k i
    have step : (k + 1 ≤ i ∧ ∃ x, l[i - (k + 1)]? = some x ∧ p x = true) ↔
        (k < i ∧ ∃ x, (a :: l)[i - k]? = some x ∧ p x = true) := by
      constructor <;> rintro ⟨h1, x, h2, h3⟩
      · exact ⟨h1, x, by rw [show i - k = (i - (k + 1)) + 1 by omega]; simpa using h2, h3⟩
      · refine ⟨h1, x, ?_, h3⟩
        rw [show i - k = (i - (k + 1)) + 1 by omega] at h2; simpa using h2
    rw [whereIdx]
    split
    · rename_i ha
      rw [List.mem_cons, ih, step]
      constructor
      · rintro (rfl | ⟨h1, h2⟩)
        · exact ⟨le_refl _, a, by simp, ha⟩
        · exact ⟨by omega, h2⟩
      · rintro ⟨h1, h2⟩
        rcases Nat.eq_or_lt_of_le h1 with h | h
        · exact .inl h.symm
        · exact .inr ⟨h, h2⟩
    · rename_i ha
      rw [ih, step]
      constructor
      · rintro ⟨h1, h2⟩; exact ⟨by omega, h2⟩
      · rintro ⟨h1, x, h2, h3⟩
        rcases Nat.eq_or_lt_of_le h1 with h | h
        · subst h; simp at h2; subst h2; exact absurd h3 ha
        · exact ⟨h, x, h2, h3⟩

theorem whereIdx_sorted (p : Dbl → Bool) : ∀ (l : List Dbl) (k : Nat),
    (whereIdx p l k).Pairwise (· < ·) := by
  intro l
  induction l with
  | nil => intro k; simp [whereIdx]
  | cons a l ih =>
    intro k
    rw [whereIdx]
    split
    · rw [List.pairwise_cons]
      exact ⟨fun i hi => by have := ((mem_whereIdx p l (k + 1) i).1 hi).1; omega, ih _⟩
    · exact ih _

theorem whereIdx_length (p : Dbl → Bool) : ∀ (l : List Dbl) (k : Nat),
    (whereIdx p l k).length ≤ l.length := by
  intro l
  induction l with
  | nil => intro k; simp [whereIdx]
  | cons a l ih =>
    intro k
    rw [whereIdx]
    split
    · simpa using ih (k + 1)
    · have := ih (k + 1); simp; omega

theorem whereIdx_lt {p : Dbl → Bool} {l : List Dbl} {i : Nat} (h : i ∈ whereIdx p l 0) :
    i < l.length := by
  obtain ⟨-, x, hx, -⟩ := (mem_whereIdx p l 0 i).1 h
  exact (List.getElem?_eq_some_iff.1 hx).1

/-! ### Total correctness of the remaining stages -/

theorem rhoLegal_spec (N : Num Dbl Cpx) (op : Dbl → Dbl → Dbl) {t : TauD} {l w : List Dbl}
    (hr : t.arr .rho = some l) (hw : t.arr .w = some w) (hl : l.length = w.length) :
    ∀ (cnt n : Nat), t.start + n + cnt ≤ l.length →
    ∃ r, rhoLegal N op t n cnt = .ok r ∧ r.length = cnt ∧
      ∀ i x y, i < cnt → l[t.start + n + i]? = some x → w[t.start + n + i]? = some y →
        r[i]? = some (op x (N.mul (N.lit (1/2)) y)) := by
  intro cnt
  induction cnt with
  | zero => intro n _; exact ⟨[], rfl, rfl, by omega⟩
  | succ c ih =>
    intro n h
    obtain ⟨r, e, e2, e3⟩ := ih (n + 1) (by omega)
    have h1 : t.start + n < l.length := by omega
    have h2 : t.start + n < w.length := by omega
    refine ⟨_, by rw [rhoLegal, hr, hw, rdP_some, rdP_some, rd_lt h1, Res.ok_bind, rd_lt h2,
      Res.ok_bind, e, Res.ok_bind], by simp [e2], ?_⟩
    intro i x y hi hx hy
    cases i with
    | zero => simp [h1, h2] at hx hy; simp [hx, hy]
    | succ i =>
      simp only [List.getElem?_cons_succ]
      exact e3 i x y (by omega) (by rw [← hx]; congr 1; omega) (by rw [← hy]; congr 1; omega)

theorem bfacRows_spec (N : Num Dbl Cpx) (L : Lib) {t : TauD} {F k rd : List Dbl}
    (hF : t.arr .F = some F) (hk : t.arr .k = some k) (hrd : t.arr .rhoDot = some rd) :
    ∀ (cnt n : Nat), n + cnt + t.start ≤ F.length → n + cnt + t.start ≤ k.length →
      n + cnt ≤ rd.length →
    ∃ r, bfacRows N L t n cnt = .ok r ∧ r.length = cnt ∧
      ∀ i f κ v, i < cnt → F[n + i + t.start]? = some f → k[n + i + t.start]? = some κ →
        rd[n + i]? = some v →
        ∃ q, r[i]? = some q ∧
          q.1 = N.mul (N.mul (N.mul L.speedOfLight κ) t.sigma)
            (N.div (N.mul (N.mul (N.mul L.speedOfLight κ) t.sigma) (N.lit (1/2))) v) ∧
          q.2 = N.div t.res (N.mul (N.mul q.1 f) f) := by
  intro cnt
  induction cnt with
  | zero => intro n _ _ _; exact ⟨[], rfl, rfl, by omega⟩
  | succ c ih =>
    intro n h1 h2 h3
    obtain ⟨r, e, e2, e3⟩ := ih (n + 1) (by omega) (by omega) (by omega)
    have l1 : n + t.start < F.length := by omega
    have l2 : n + t.start < k.length := by omega
    have l3 : n < rd.length := by omega
    refine ⟨_, by rw [bfacRows, bfacRow, hF, hk, hrd, rdP_some, rdP_some, rdP_some, rd_lt l1,
      rd_lt l2, rd_lt l3]; simp only [Res.ok_bind]; rw [e, Res.ok_bind], by simp [e2], ?_⟩
    intro i f κ v hi a b d
    cases i with
    | zero =>
      simp [l1, l2, l3] at a b d
      subst a b d
      exact ⟨_, by rw [List.getElem?_cons_zero], rfl, rfl⟩
    | succ i =>
      simp only [List.getElem?_cons_succ]
      exact e3 i f κ v (by omega) (by rw [← a]; congr 1; omega) (by rw [← b]; congr 1; omega)
        (by rw [← d]; congr 1; omega)

/-- What the storing loop of the b-factor branch does: `idx` lists the points with
`P > 1` (ascending), the others keep their value. -/
theorem bfacStore_spec (N : Num Dbl Cpx) {t : TauD} {rows : List (Dbl × Dbl)} :
    ∀ (idx : List Nat) (j : Nat) (w : List Dbl), idx.Pairwise (· < ·) →
      (∀ i ∈ idx, i < rows.length) → j + idx.length ≤ rows.length →
      (∀ i ∈ idx, t.start + i < w.length) →
    ∃ w', bfacStore N t rows idx j w = .ok w' ∧ w'.length = w.length ∧
      (∀ m, (∀ i ∈ idx, m ≠ t.start + i) → w'[m]? = w[m]?) ∧
      ∀ a i, idx[a]? = some i → ∃ P al, rows[i]? = some P ∧ rows[j + a]? = some al ∧
        w'[t.start + i]? = some (N.div (N.mul t.normeq (N.resolutionInverse P.2)) al.1) := by
  intro idx
  induction idx with
  | nil => intro j w _ _ _ _; exact ⟨w, rfl, rfl, by simp, by simp⟩
  | cons i is ih =>
    intro j w hp hi hj hw
    have hp' := List.pairwise_cons.1 hp
    have h1 : i < rows.length := hi i (by simp)
    have h2 : j < rows.length := by simp at hj; omega
    have h3 : t.start + i < w.length := hw i (by simp)
    rw [bfacStore, rd_lt h1, Res.ok_bind, rd_lt h2, Res.ok_bind]
    simp only
    rw [wr_lt h3, Res.ok_bind]
    obtain ⟨w', e, el, e1, e2⟩ := ih (j + 1) (w.set (t.start + i)
      (N.div (N.mul t.normeq (N.resolutionInverse rows[i].2)) rows[j].1)) hp'.2
      (fun a ha => hi a (by simp [ha])) (by simp at hj; omega)
      (fun a ha => by simpa using hw a (by simp [ha]))
    refine ⟨w', e, by simpa using el, ?_, ?_⟩
    · intro m hm
      rw [e1 m (fun a ha => hm a (by simp [ha])), List.getElem?_set_ne]
      exact fun h => hm i (by simp) h.symm
    · intro a i' ha
      cases a with
      | zero =>
        simp at ha; subst ha
        refine ⟨rows[i], rows[j], by simp [h1], by simp [h2], ?_⟩
        rw [e1 (t.start + i) (fun b hb => by have := hp'.1 b hb; omega),
          List.getElem?_set_self h3]
      | succ a =>
        obtain ⟨P, al, q1, q2, q3⟩ := e2 a i' (by simpa using ha)
        exact ⟨P, al, q1, by rw [← q2]; congr 1; omega, q3⟩

theorem widthsPlain_spec (N : Num Dbl Cpx) {t : TauD} {F : List Dbl} (hF : t.arr .F = some F)
    (wfac : Dbl) : ∀ (cnt n : Nat) (w : List Dbl), n + cnt + t.start ≤ F.length →
      n + cnt + t.start ≤ w.length →
    ∃ w', widthsPlain N t wfac n cnt w = .ok w' ∧ w'.length = w.length ∧
      (∀ m, m < n + t.start ∨ n + cnt + t.start ≤ m → w'[m]? = w[m]?) ∧
      ∀ m f, n + t.start ≤ m → m < n + cnt + t.start → F[m]? = some f →
        w'[m]? = some (N.mul (N.mul (N.mul (N.lit 2) f) f) wfac) := by
  intro cnt
  induction cnt with
  | zero => intro n w _ _; exact ⟨w, rfl, rfl, by simp, by omega⟩
  | succ c ih =>
    intro n w h1 h2
    have l1 : n + t.start < F.length := by omega
    have l2 : n + t.start < w.length := by omega
    rw [widthsPlain, hF, rdP_some, rd_lt l1, Res.ok_bind, wr_lt l2, Res.ok_bind]
    obtain ⟨w', e, el, e1, e2⟩ := ih (n + 1) (w.set (n + t.start)
      (N.mul (N.mul (N.mul (N.lit 2) F[n + t.start]) F[n + t.start]) wfac)) (by omega)
      (by simp; omega)
    refine ⟨w', e, by simpa using el, ?_, ?_⟩
    · intro m hm
      rw [e1 m (by omega), List.getElem?_set_ne (by omega)]
    · intro m f a b hf
      by_cases hm : m = n + t.start
      · subst hm
        rw [e1 _ (by omega), List.getElem?_set_self l2]
        simp [l1] at hf
        rw [hf]
      · exact e2 m f (by omega) (by omega) hf

theorem gwwWidths_spec (N : Num Dbl Cpx) (L : Lib) {t : TauD} {F k v : List Dbl}
    (hF : t.arr .F = some F) (hk : t.arr .k = some k) (hv : t.arr .rhoDot = some v)
    (lF : F.length = t.arrSize) (lk : k.length = t.arrSize) (lv : v.length = t.arrSize)
    (hs : t.start + t.nUsed ≤ t.arrSize) :
    ∃ w, gwwWidths N L t = .ok (t.setArr .w (some w)) ∧ w.length = t.arrSize := by
  have key : ∃ w, (if t.bfac then widthsBfac N L t (List.replicate t.arrSize (Dbl.fin 0))
      else widthsPlain N t (N.div t.normeq t.res) 0 t.nUsed
        (List.replicate t.arrSize (Dbl.fin 0)) : Res (List Dbl)) = .ok w ∧
      w.length = t.arrSize := by
    split
    · obtain ⟨rows, e, el, -⟩ := bfacRows_spec N L hF hk hv t.nUsed 0 (by omega) (by omega)
        (by omega)
      have hlen : (rows.map Prod.snd).length = t.nUsed := by simp [el]
      obtain ⟨w', e', el', -, -⟩ := bfacStore_spec N (t := t) (rows := rows)
        (whereIdx (fun p => p.gt (.fin 1)) (rows.map Prod.snd) 0) 0
        (List.replicate t.arrSize (Dbl.fin 0)) (whereIdx_sorted _ _ _)
        (fun i hi => by have := whereIdx_lt hi; omega)
        (by have := whereIdx_length (fun p => p.gt (.fin 1)) (rows.map Prod.snd) 0; omega)
        (fun i hi => by have := whereIdx_lt hi; simp; omega)
      exact ⟨w', by rw [widthsBfac, e, Res.ok_bind]; exact e', by simpa using el'⟩
    · obtain ⟨w', e', el', -, -⟩ := widthsPlain_spec N hF (N.div t.normeq t.res) t.nUsed 0
        (List.replicate t.arrSize (Dbl.fin 0)) (by omega) (by simp; omega)
      exact ⟨w', e', by simpa using el'⟩
  obtain ⟨w, e, el⟩ := key
  exact ⟨w, by rw [gwwWidths]; simp only [e, Res.ok_bind], el⟩

/-- The left end of the window of point `a` lies inside the data. -/
def LegalLeft (N : Num Dbl Cpx) (l w : List Dbl) (a : Nat) : Prop :=
  ∃ r ω r0, l[a]? = some r ∧ w[a]? = some ω ∧ l[0]? = some r0 ∧
    r0.lt (N.sub r (N.mul (N.lit (1/2)) ω)) = true

/-- The right end of the window of point `a` lies inside the data. -/
def LegalRight (N : Num Dbl Cpx) (l w : List Dbl) (a : Nat) : Prop :=
  ∃ r ω rl, l[a]? = some r ∧ w[a]? = some ω ∧ l[l.length - 1]? = some rl ∧
    (N.add r (N.mul (N.lit (1/2)) ω)).lt rl = true

theorem cutLeft_spec (N : Num Dbl Cpx) {t : TauD} {l w : List Dbl}
    (hr : t.arr .rho = some l) (hw : t.arr .w = some w) (hlw : l.length = w.length)
    (h0 : 0 < l.length) (hs : t.start + t.nUsed ≤ l.length) :
    (∃ n, cutLeft N t = .ok (.stop (t.fail .getWindowWidth n)) ∧
      ∀ j, j < t.nUsed → ¬ LegalLeft N l w (t.start + j)) ∨
    ∃ i, cutLeft N t = .ok (.go { t with start := t.start + i, nUsed := t.nUsed - i }) ∧
      i < t.nUsed ∧ LegalLeft N l w (t.start + i) ∧ ∀ j, j < i → ¬ LegalLeft N l w (t.start + j) := by
  obtain ⟨leg, e, el, hleg⟩ := rhoLegal_spec N N.sub hr hw hlw t.nUsed 0 (by omega)
  have hmem : ∀ j, j < t.nUsed → (j ∈ whereIdx (fun x => x.gt l[0]) leg 0 ↔
      LegalLeft N l w (t.start + j)) := by
    intro j hj
    have hx : t.start + j < l.length := by omega
    have hy : t.start + j < w.length := by omega
    have hl' := hleg j l[t.start + j] w[t.start + j] hj (by simp [hx]) (by simp [hy])
    rw [mem_whereIdx]
    simp only [Nat.sub_zero, hl', Nat.zero_le, true_and, LegalLeft]
    constructor
    · rintro ⟨x, a, b⟩
      cases a
      exact ⟨_, _, l[0], by simp [hx], by simp [hy], by simp [h0], b⟩
    · rintro ⟨r, ω, r0, a, b, c, d⟩
      simp [hx, hy, h0] at a b c
      subst a b c
      exact ⟨_, rfl, d⟩
  rw [cutLeft, e, Res.ok_bind, hr, rdP_some, rd_lt h0, Res.ok_bind]
  cases hi : whereIdx (fun x => x.gt l[0]) leg 0 with
  | nil =>
    refine .inl ⟨_, rfl, fun j hj c => ?_⟩
    have := (hmem j hj).2 c
    rw [hi] at this; cases this
  | cons i is =>
    have himem : i ∈ whereIdx (fun x => x.gt l[0]) leg 0 := by rw [hi]; simp
    have hilt : i < t.nUsed := by have := whereIdx_lt himem; omega
    have hsort := whereIdx_sorted (fun x => x.gt l[0]) leg 0
    rw [hi] at hsort
    refine .inr ⟨i, ?_, hilt, (hmem i hilt).1 himem, ?_⟩
    · simp only
      split
      · rfl
      · have : i = 0 := by omega
        subst this; rfl
    · intro j hj c
      have := (hmem j (by omega)).2 c
      rw [hi, List.mem_cons] at this
      rcases this with h | h
      · omega
      · have := (List.pairwise_cons.1 hsort).1 j h; omega

theorem cutRight_spec (N : Num Dbl Cpx) {t : TauD} {l w : List Dbl}
    (hr : t.arr .rho = some l) (hw : t.arr .w = some w) (hlw : l.length = w.length)
    (h0 : 0 < l.length) (hsz : t.arrSize = l.length) (hs : t.start + t.nUsed ≤ l.length) :
    (∃ n, cutRight N t = .ok (.stop (t.fail .getWindowWidth n)) ∧
      ∀ j, j < t.nUsed → ¬ LegalRight N l w (t.start + j)) ∨
    ∃ idx : List Nat, cutRight N t = .ok (.go { t with nUsed := idx.length - 1 }) ∧
      0 < idx.length ∧ idx.length ≤ t.nUsed ∧ idx.Pairwise (· < ·) ∧
      ∀ j, j ∈ idx ↔ j < t.nUsed ∧ LegalRight N l w (t.start + j) := by
  obtain ⟨leg, e, el, hleg⟩ := rhoLegal_spec N N.add hr hw hlw t.nUsed 0 (by omega)
  have hlast : l.length - 1 < l.length := by omega
  have hmem : ∀ j, (j ∈ whereIdx (fun x => x.lt l[l.length - 1]) leg 0 ↔
      j < t.nUsed ∧ LegalRight N l w (t.start + j)) := by
    intro j
    by_cases hj : j < t.nUsed
    · have hx : t.start + j < l.length := by omega
      have hy : t.start + j < w.length := by omega
      have hl' := hleg j l[t.start + j] w[t.start + j] hj (by simp [hx]) (by simp [hy])
      rw [mem_whereIdx]
      simp only [Nat.sub_zero, hl', Nat.zero_le, true_and, LegalRight, hj]
      constructor
      · rintro ⟨x, a, b⟩
        cases a
        exact ⟨_, _, l[l.length - 1], by simp [hx], by simp [hy], by simp [hlast], b⟩
      · rintro ⟨r, ω, r0, a, b, c, d⟩
        simp [hx, hy, hlast] at a b c
        subst a b c
        exact ⟨_, rfl, d⟩
    · simp only [hj, false_and, iff_false]
      intro hc
      have := whereIdx_lt hc
      omega
  rw [cutRight, e, Res.ok_bind, hsz, subIdx, if_pos (by omega), Res.ok_bind, hr, rdP_some,
    rd_lt hlast, Res.ok_bind]
  simp only
  cases hi : (whereIdx (fun x => x.lt l[l.length - 1]) leg 0).getLast? with
  | none =>
    rw [List.getLast?_eq_none_iff] at hi
    refine .inl ⟨_, rfl, fun j hj c => ?_⟩
    have := (hmem j).2 ⟨hj, c⟩
    rw [hi] at this; cases this
  | some i =>
    have himem := List.mem_of_getLast? hi
    have hilt : i < t.nUsed := by have := whereIdx_lt himem; omega
    refine .inr ⟨_, by simp only [hilt, if_true], List.length_pos_of_mem himem, ?_,
      whereIdx_sorted _ _ _, hmem⟩
    have := whereIdx_length (fun x => x.lt l[l.length - 1]) leg 0
    omega

/-- `t` with the range found. -/
abbrev located (t : TauD) (x0 x1 : Dbl) (s m : Nat) : TauD :=
  { t with range0 := x0, start := s, range1 := x1, nUsed := m }

/-- Everything that is known about a successful `getWindowWidth`: `s`, `m` is the
requested range, `i` the number of points cut on the left, `idx` the points
whose window fits on the right. -/
structure Selected (N : Num Dbl Cpx) (L : Lib) (l : List Dbl) (t u : TauD) (s m i : Nat)
    (x0 x1 : Dbl) (w : List Dbl) (idx : List Nat) : Prop where
  first : l[s]? = some x0
  first_ge : x0.lt t.range0 = false
  before : ∀ j z, j < s → l[j]? = some z → z.lt t.range0 = true
  fits : s + m ≤ t.arrSize
  last : (s + m = t.arrSize ∧ l[t.arrSize - 1]? = some x1 ∧ x1.le t.range1 = true) ∨
       (s + m < t.arrSize ∧ l[s + m]? = some x1 ∧ x1.le t.range1 = false ∧
        ∀ j z, s ≤ j → j < s + m → l[j]? = some z → z.le t.range1 = true)
  widths : gwwWidths N L (located t x0 x1 s m) =
    .ok (Tau.setArr (located t x0 x1 s m) .w (some w))
  wlen : w.length = t.arrSize
  i_lt : i < m
  left : LegalLeft N l w (s + i)
  left_cut : ∀ j, j < i → ¬ LegalLeft N l w (s + j)
  idx_pos : 0 < idx.length
  idx_le : idx.length ≤ m - i
  idx_sorted : idx.Pairwise (· < ·)
  right : ∀ j, j ∈ idx ↔ j < m - i ∧ LegalRight N l w (s + i + j)
  result : u = Tau.setArr (located t x0 x1 (s + i) (idx.length - 1)) .w (some w)

/-- `getWindowWidth` never has undefined behaviour on full-length arrays. -/
theorem getWindowWidth_spec (N : Num Dbl Cpx) (L : Lib) {t : TauD} {l F k v : List Dbl}
    (h : t.err = none) (hr : t.arr .rho = some l) (hF : t.arr .F = some F)
    (hk : t.arr .k = some k) (hv : t.arr .rhoDot = some v) (ll : l.length = t.arrSize)
    (lF : F.length = t.arrSize) (lk : k.length = t.arrSize) (lv : v.length = t.arrSize)
    (h0 : 0 < t.arrSize) :
    ∃ u, getWindowWidth N L t = .ok u ∧
      (u.err ≠ none ∨ ∃ s m i x0 x1 w idx, Selected N L l t u s m i x0 x1 w idx) := by
  rw [getWindowWidth_eq N L h]
  rcases gwwStart_spec hr ll h0 with ⟨n, e⟩ | ⟨s, x0, e1, a1, a2, -, a3⟩
  · exact ⟨_, by rw [e]; rfl, .inl (by simp)⟩
  rw [e1, Res.ok_bind]
  simp only
  have hs : s < t.arrSize := by rw [← ll]; exact (List.getElem?_eq_some_iff.1 a1).1
  rcases gwwEnd_spec (t := { t with range0 := x0, start := s }) hr ll hs with
    ⟨n, e⟩ | ⟨m, x1, e2, b1, b2⟩
  · exact ⟨_, by rw [e]; rfl, .inl (by simp)⟩
  rw [e2, Res.ok_bind]
  simp only
  rw [gwwRest]
  split
  · exact ⟨_, rfl, .inl (by simp)⟩
  obtain ⟨w, e3, lw⟩ := gwwWidths_spec N L
    (t := located t x0 x1 s m) hF hk hv lF lk lv b1
  rw [e3, Res.ok_bind]
  have lw' : w.length = t.arrSize := lw
  have hr' : (Tau.setArr (located t x0 x1 s m) .w
    (some w)).arr .rho = some l := hr
  have hw' : (Tau.setArr (located t x0 x1 s m) .w
    (some w)).arr .w = some w := rfl
  rcases cutLeft_spec N hr' hw' (by omega) (by omega) (by rw [ll]; exact b1) with
    ⟨n, e, -⟩ | ⟨i, e4, c1, c2, c3⟩
  · exact ⟨_, by rw [e]; rfl, .inl (by simp)⟩
  rw [e4, Res.ok_bind]
  simp only
  have c1' : i < m := c1
  rcases cutRight_spec N (t := { Tau.setArr (located t x0 x1 s m) .w (some w) with start := s + i, nUsed := m - i }) (l := l) (w := w) hr rfl
    (by omega) (by omega) ll.symm (by simp only; have : s + m ≤ t.arrSize := b1; omega) with
    ⟨n, e, -⟩ | ⟨idx, e5, d1, d2, d3, d4⟩
  · have hh : cutRight N { Tau.setArr (located t x0 x1 s m) .w (some w) with start := s + i, nUsed := m - i } = _ := e
    exact ⟨_, by
      show (cutRight N { Tau.setArr (located t x0 x1 s m) .w (some w) with start := s + i, nUsed := m - i } >>= _) = _
      rw [e]; rfl, .inl (by simp)⟩
  have d2' : idx.length ≤ m - i := d2
  have b1' : s + m ≤ t.arrSize := b1
  refine ⟨Tau.setArr (located t x0 x1 (s + i) (idx.length - 1)) .w (some w), ?_, .inr ⟨s, m, i, x0, x1, w, idx, ?_⟩⟩
  · show (cutRight N { Tau.setArr (located t x0 x1 s m) .w (some w) with start := s + i, nUsed := m - i } >>= _) = _
    rw [e5, Res.ok_bind]
    simp only [Tau.setArr]
    rw [if_neg (by omega), if_neg (by omega)]
  · exact ⟨a1, a2, a3, b1, b2, e3, lw', c1, c2, c3, d1, d2, d3, d4, rfl⟩

end Verif
