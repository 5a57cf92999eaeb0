import Verif.Model.Models
import Verif.Proofs.Recon

/-! Lemmas about the synthetic profiles. -/
namespace Verif

theorem storeIn_ok {t : TauD} {l : List Cpx} (h : t.carr .tIn = some l) {i : Nat} (hi : i < l.length) (v : Cpx) :
    storeIn i v t = .ok (t.setC .tIn (some (l.set i v))) := by
  unfold storeIn
  rw [h]
  simp only []
  rw [wr_lt hi, Res.ok_bind]

/-- A loop that writes `f i` to entry `i`, for `i = lo .. hi-1`. -/
theorem fillIn_ok (body : Nat → TauD → Res TauD) (f : Nat → Cpx) {t : TauD} {l : List Cpx}
    (h : t.carr .tIn = some l) (lo cnt : Nat) (hl : lo + cnt ≤ l.length)
    (hb : ∀ i l', lo ≤ i → i < lo + cnt → body i (t.setC .tIn (some l')) = storeIn i (f i) (t.setC .tIn (some l'))) :
    ∃ l', forRange lo cnt body t = .ok (t.setC .tIn (some l')) ∧ l'.length = l.length ∧
      ∀ i, i < l.length → l'[i]? = if lo ≤ i ∧ i < lo + cnt then some (f i) else l[i]? := by
  obtain ⟨u, e, l', hu, hl', hv⟩ := forRange_total
    (fun k u => ∃ l', u = t.setC .tIn (some l') ∧ l'.length = l.length ∧
      ∀ i, i < l.length → l'[i]? = if lo ≤ i ∧ i < k then some (f i) else l[i]?) body cnt lo t
    ⟨l, by rw [← h, setC_self], rfl, fun i _ => by rw [if_neg (by omega)]⟩
    (by
      rintro i u h1 h2 ⟨l', rfl, hl', hv⟩
      refine ⟨_, (hb i l' h1 h2).trans (storeIn_ok (l := l') (by simp [Tau.setC]) (by omega) _), l'.set i (f i),
        setC_setC _ _ _ _, by simpa using hl', fun j hj => ?_⟩
      by_cases hij : i = j
      · subst hij
        rw [if_pos (by omega), List.getElem?_set_self (by omega)]
      · rw [List.getElem?_set_ne hij, hv j hj]
        by_cases hc : lo ≤ j ∧ j < i
        · rw [if_pos hc, if_pos (by omega)]
        · rw [if_neg hc, if_neg (by omega)])
  subst hu
  exact ⟨l', e, hl', hv⟩

theorem belowLoop_ok (c : Dbl) (v : Cpx) {r : List Dbl} : ∀ (fuel n : Nat) (t : TauD) (l : List Cpx),
    t.arr .rho = some r → t.carr .tIn = some l → l.length = r.length → r.length < fuel + n →
    (∃ j x, n ≤ j ∧ r[j]? = some x ∧ x.lt c = false) →
    ∃ l' m, belowLoop c v fuel n t = .ok (t.setC .tIn (some l'), m) ∧ l'.length = l.length ∧ n ≤ m ∧
      (∃ x, r[m]? = some x ∧ x.lt c = false) ∧ (∀ i x, n ≤ i → i < m → r[i]? = some x → x.lt c = true) ∧
      ∀ i, i < l.length → l'[i]? = if n ≤ i ∧ i < m then some v else l[i]? := by
  intro fuel
  induction fuel with
  | zero =>
    intro n t l _ _ _ hf ⟨j, x, hj, hx, _⟩
    have := (List.getElem?_eq_some_iff.1 hx).1
    omega
  | succ fuel ih =>
    intro n t l hr hl hlen hf ⟨j, x, hj, hx, hxc⟩
    have hjr := (List.getElem?_eq_some_iff.1 hx).1
    have hn : n < r.length := by omega
    unfold belowLoop
    rw [hr, rdP_some, rd_lt hn, Res.ok_bind]
    cases hc : (r[n]).lt c
    · simp only [Bool.false_eq_true, if_false]
      exact ⟨l, n, by rw [← hl, setC_self], rfl, le_refl _, ⟨_, by simp [hn], hc⟩, fun i x h1 h2 => by omega,
        fun i _ => by rw [if_neg (by omega)]⟩
    · simp only [if_true]
      have hj' : n + 1 ≤ j := by
        rcases Nat.lt_or_ge n j with h | h
        · exact h
        · have : n = j := by omega
          subst this
          have : r[n] = x := by simpa [hn] using hx
          rw [this, hxc] at hc; cases hc
      rw [storeIn_ok hl (by omega), Res.ok_bind]
      obtain ⟨l', m, e, h1, h2, h3, h4, h5⟩ := ih (n + 1) (t.setC .tIn (some (l.set n v))) (l.set n v) hr
        (by simp [Tau.setC]) (by simpa using hlen) (by omega) ⟨j, x, hj', hx, hxc⟩
      refine ⟨l', m, by rw [e, setC_setC], by simpa using h1, by omega, h3, fun i x a b hi => ?_, fun i hi => ?_⟩
      · rcases Nat.lt_or_ge n i with h | h
        · exact h4 i x h b hi
        · have : i = n := by omega
          subst this
          have : r[i] = x := by simpa [hn] using hi
          rw [← this]; exact hc
      · rw [h5 i (by simpa using hi)]
        by_cases hin : i = n
        · subst hin
          rw [if_neg (by omega), if_pos (by omega), List.getElem?_set_self hi]
        · rw [List.getElem?_set_ne (by omega)]
          by_cases h : n + 1 ≤ i ∧ i < m
          · rw [if_pos h, if_pos (by omega)]
          · rw [if_neg h, if_neg (by omega)]

/-- The profile for arbitrary arrays: no undefined behaviour; outside the data a constant, otherwise
`below` up to the first radius that is not below the edge. -/
theorem edgeProfile_ok (below above : Cpx) (c : Dbl) {t : TauD} {r : List Dbl} {l : List Cpx}
    (hr : t.arr .rho = some r) (hl : t.carr .tIn = some l) (hn : r.length = t.arrSize) (hm : l.length = t.arrSize)
    (h0 : t.arrSize ≠ 0) :
    ∃ l' b, edgeProfile below above c t = .ok (t.setC .tIn (some l'), b) ∧ l'.length = t.arrSize ∧
      ∃ first last, r[0]? = some first ∧ r[t.arrSize - 1]? = some last ∧
      ((c.le first = true ∧ b = true ∧ ∀ i, i < t.arrSize → l'[i]? = some above) ∨
       (c.le first = false ∧ last.le c = true ∧ b = true ∧ ∀ i, i < t.arrSize → l'[i]? = some below) ∨
       (c.le first = false ∧ last.le c = false ∧ b = false ∧ ∃ m, m < t.arrSize ∧
         (∃ x, r[m]? = some x ∧ x.lt c = false) ∧ (∀ i x, i < m → r[i]? = some x → x.lt c = true) ∧
         ∀ i, i < t.arrSize → l'[i]? = some (if i < m then below else above))) := by
  have hr0 : 0 < r.length := by omega
  have hrl : t.arrSize - 1 < r.length := by omega
  have er : rdP (t.arr .rho) 0 = .ok r[0] := by rw [hr, rdP_some, rd_lt hr0]
  have el : rdP (t.arr .rho) (t.arrSize - 1) = .ok r[t.arrSize - 1] := by rw [hr, rdP_some, rd_lt hrl]
  have es : subIdx t.arrSize 1 = .ok (t.arrSize - 1) := by
    unfold subIdx; rw [if_pos (by omega)]
  unfold edgeProfile
  rw [er, Res.ok_bind]
  cases h1 : c.le r[0]
  · simp only [Bool.false_eq_true, if_false]
    rw [es, Res.ok_bind, el, Res.ok_bind]
    cases h2 : (r[t.arrSize - 1]).le c
    · simp only [Bool.false_eq_true, if_false]
      have hlast : (r[t.arrSize - 1]).lt c = false := by
        cases hh : (r[t.arrSize - 1]).lt c
        · rfl
        · rw [Dbl.le_of_lt hh] at h2; cases h2
      obtain ⟨l1, m, e1, a1, a2, a3, a4, a5⟩ := belowLoop_ok c below (((t.arr .rho).getD []).length + 1) 0 t l hr hl
        (by omega) (by rw [hr]; simp) ⟨t.arrSize - 1, _, by omega, by simp [hrl], hlast⟩
      have hmr : m < t.arrSize := by
        obtain ⟨x, hx, _⟩ := a3
        have := (List.getElem?_eq_some_iff.1 hx).1
        omega
      rw [e1, Res.ok_bind]
      simp only []
      obtain ⟨l2, e2, b1, b2⟩ := fillIn_ok (fun n t => storeIn n above t) (fun _ => above)
        (t := t.setC .tIn (some l1)) (l := l1) (by simp [Tau.setC]) m (t.arrSize - m) (by omega)
        (fun i l' _ _ => rfl)
      rw [e2, Res.ok_bind, setC_setC]
      refine ⟨l2, false, rfl, by omega, r[0], r[t.arrSize - 1], by simp [hr0], by simp [hrl], .inr (.inr ⟨h1, h2, rfl, m, hmr, a3,
        fun i x hi => a4 i x (by omega) hi, fun i hi => ?_⟩)⟩
      rw [b2 i (by omega)]
      by_cases him : i < m
      · rw [if_neg (by omega), if_pos him, a5 i (by omega), if_pos (by omega)]
      · rw [if_pos (by omega), if_neg him]
    · simp only [if_true]
      obtain ⟨l2, e2, b1, b2⟩ := fillIn_ok (fun n t => storeIn n below t) (fun _ => below) hl 0 t.arrSize (by omega)
        (fun i l' _ _ => rfl)
      rw [e2, Res.ok_bind]
      refine ⟨l2, true, rfl, by omega, r[0], r[t.arrSize - 1], by simp [hr0], by simp [hrl], .inr (.inl ⟨h1, h2, rfl, fun i hi => ?_⟩)⟩
      rw [b2 i (by omega), if_pos (by omega)]
  · simp only [if_true]
    obtain ⟨l2, e2, b1, b2⟩ := fillIn_ok (fun n t => storeIn n above t) (fun _ => above) hl 0 t.arrSize (by omega)
      (fun i l' _ _ => rfl)
    rw [e2, Res.ok_bind]
    refine ⟨l2, true, rfl, by omega, r[0], r[t.arrSize - 1], by simp [hr0], by simp [hrl], .inl ⟨h1, rfl, fun i hi => ?_⟩⟩
    rw [b2 i (by omega), if_pos (by omega)]

theorem setC_comm (t : TauD) (a b) : (t.setC .tIn a).setC .tOut b = (t.setC .tOut b).setC .tIn a := by
  unfold Tau.setC
  congr 1
  funext g
  cases g <;> rfl

theorem setC_four (t : TauD) (a b c d) :
    (((t.setC .tIn a).setC .tOut b).setC .tIn c).setC .tOut d = (t.setC .tIn c).setC .tOut d := by
  unfold Tau.setC
  congr 1
  funext g
  cases g <;> rfl

theorem move_frame {N : Num Dbl Cpx} {v x : TauD} {cnt : Nat} (e : forRange 0 cnt (moveOut N) v = .ok x) :
    ∃ a b, x = (v.setC .tIn a).setC .tOut b := by
  refine forRange_partial (fun _ x => ∃ a b, x = (v.setC .tIn a).setC .tOut b) (moveOut N) cnt 0 v x
    ⟨v.carr .tIn, v.carr .tOut, by rw [setC_self, setC_self]⟩ ?_ e
  rintro i y y' - - ⟨a, b, rfl⟩ e
  unfold moveOut at e
  rw [Res.bind_eq_ok] at e
  obtain ⟨z, -, e⟩ := e
  rw [Res.bind_eq_ok] at e
  obtain ⟨w, e1, e2⟩ := e
  unfold storeIn at e1
  cases ha : ((v.setC .tIn a).setC .tOut b).carr .tIn with
  | none => rw [ha] at e1; cases e1
  | some l =>
    rw [ha] at e1
    simp only [Res.bind_eq_ok] at e1
    obtain ⟨l1, -, e1⟩ := e1
    cases e1
    unfold storeOut at e2
    cases hb : ((((v.setC .tIn a).setC .tOut b).setC .tIn (some l1))).carr .tOut with
    | none => rw [hb] at e2; cases e2
    | some m =>
      rw [hb] at e2
      simp only [Res.bind_eq_ok] at e2
      obtain ⟨m1, -, e2⟩ := e2
      cases e2
      exact ⟨some l1, some m1, setC_four _ _ _ _ _⟩

theorem move_ok (N : Num Dbl Cpx) {v : TauD} {lo li : List Cpx} (ho : v.carr .tOut = some lo)
    (hi : v.carr .tIn = some li) (h1 : lo.length = v.arrSize) (h2 : li.length = v.arrSize) :
    forRange 0 v.arrSize (moveOut N) v =
      .ok ((v.setC .tIn (some lo)).setC .tOut (some (List.replicate v.arrSize N.czero))) := by
  obtain ⟨x, e, a, b, hx, la, lb, ga, gb⟩ := forRange_total
    (fun k x => ∃ a b, x = (v.setC .tIn (some a)).setC .tOut (some b) ∧ a.length = v.arrSize ∧ b.length = v.arrSize ∧
      (∀ i, i < v.arrSize → a[i]? = if i < k then lo[i]? else li[i]?) ∧
      ∀ i, i < v.arrSize → b[i]? = if i < k then some N.czero else lo[i]?) (moveOut N) v.arrSize 0 v
    ⟨li, lo, by rw [← hi, ← ho, setC_self, setC_self], h2, h1, fun i _ => by simp, fun i _ => by simp⟩
    (by
      rintro i x - hlt ⟨a, b, rfl, la, lb, ga, gb⟩
      have hib : i < b.length := by omega
      have hlo : i < lo.length := by omega
      have hbi : b[i] = lo[i] := by
        have := gb i (by omega)
        rw [if_neg (by omega), List.getElem?_eq_getElem hib, List.getElem?_eq_getElem hlo] at this
        exact Option.some.inj this
      refine ⟨((v.setC .tIn (some (a.set i lo[i]))).setC .tOut (some (b.set i N.czero))), ?_, a.set i lo[i], b.set i N.czero, rfl,
        by simpa using la, by simpa using lb, fun j hj => ?_, fun j hj => ?_⟩
      · unfold moveOut
        rw [show ((v.setC .tIn (some a)).setC .tOut (some b)).carr .tOut = some b by simp [Tau.setC], rdP_some,
          rd_lt hib, Res.ok_bind, storeIn_ok (l := a) (by simp [Tau.setC]) (by omega), Res.ok_bind, hbi]
        unfold storeOut
        rw [show ((((v.setC .tIn (some a)).setC .tOut (some b)).setC .tIn (some (a.set i lo[i])))).carr .tOut = some b by
          simp [Tau.setC]]
        simp only []
        rw [wr_lt hib, Res.ok_bind, setC_four]
      · by_cases hij : i = j
        · subst hij
          rw [List.getElem?_set_self (by omega), if_pos (by omega), List.getElem?_eq_getElem hlo]
        · rw [List.getElem?_set_ne hij, ga j hj]
          by_cases hc : j < i
          · rw [if_pos hc, if_pos (by omega)]
          · rw [if_neg hc, if_neg (by omega)]
      · by_cases hij : i = j
        · subst hij
          rw [List.getElem?_set_self (by omega), if_pos (by omega)]
        · rw [List.getElem?_set_ne hij, gb j hj]
          by_cases hc : j < i
          · rw [if_pos hc, if_pos (by omega)]
          · rw [if_neg hc, if_neg (by omega)])
  rw [e, hx]
  have ea : a = lo := by
    apply List.ext_getElem? ; intro i
    by_cases hi' : i < v.arrSize
    · rw [ga i hi', if_pos (by omega)]
    · rw [List.getElem?_eq_none (by omega), List.getElem?_eq_none (by omega)]
  have eb : b = List.replicate v.arrSize N.czero := by
    apply List.ext_getElem? ; intro i
    by_cases hi' : i < v.arrSize
    · rw [gb i hi', if_pos (by omega), List.getElem?_replicate, if_pos hi']
    · rw [List.getElem?_eq_none (by omega), List.getElem?_eq_none (by simp; omega)]
  rw [ea, eb]

/-- The dispatcher, also for objects with an error. -/
theorem dc_frame' {N : Num Dbl Cpx} {L : Lib} {sem : Sem} (hs : IgnoresOut sem) {Z : FFT} {E : Env}
    (hE : E.Lawful) {t u : TauD} (e : diffractionCorrection N L sem Z E t = .ok u) :
    DcFrame t u ∧ (t.err ≠ none → u = t) := by
  cases h : t.err with
  | none => exact ⟨(dc_frame hs hE h e).1, fun hc => absurd rfl hc⟩
  | some er =>
    unfold diffractionCorrection guarded at e
    rw [if_pos (by rw [h]; rfl)] at e
    cases e
    exact ⟨DcFrame.refl t, fun _ => rfl⟩

/-- The parts of a run of `roundTrip`. -/
theorem roundTrip_ok {N : Num Dbl Cpx} {L : Lib} {sem : Sem} {Z : FFT} {E : Env} {A : ModelMem} {fn : Fn} {l1 l2 : Nat}
    {t u : TauD} (e : roundTrip N L sem Z E A fn l1 l2 t = .ok u) :
    ∃ v m ws nw, diffractionCorrection N L sem Z E { t with useFwd := true } = .ok v ∧
      forRange 0 v.arrSize (moveOut N) v = .ok m ∧ rdN (m.arr .w) m.arrSize = .ok ws ∧
      (N.div (L.arrMax ws) (N.mul m.dx (N.lit 2))).toSize = .ok nw ∧
      ((m.nUsed ≤ 2 * nw ∧ u = m.fail fn l1) ∨
       (2 * nw < m.nUsed ∧ ∃ x, diffractionCorrection N L sem Z E
          { m with start := m.start + nw, nUsed := m.nUsed - 2 * nw, useFwd := false } = .ok x ∧
        ((t.useFwd = false ∧ u = { x with useFwd := false }) ∨
         (t.useFwd = true ∧ ∃ nw', (N.div (L.arrMax ws) (N.mul x.dx (N.lit 2))).toSize = .ok nw' ∧
          ∃ z : TauD, z = ({ x with useFwd := true }.setC .tIn (x.carr .tOut)).setC .tOut
              (if A.calloc then some (List.replicate x.arrSize N.czero) else none) ∧
          ((x.nUsed ≤ 2 * nw' ∧ u = z.fail fn l2) ∨
           (2 * nw' < x.nUsed ∧ ∃ y, diffractionCorrection N L sem Z E
              { z with start := x.start + nw', nUsed := x.nUsed - 2 * nw' } = .ok y ∧
            u = ((y.setC .tFwd (y.carr .tOut)).setC .tOut (y.carr .tIn)).setC .tIn (x.carr .tIn))))))) := by
  unfold roundTrip at e
  simp only [Res.bind_eq_ok] at e
  obtain ⟨v, e1, m, e2, ws, e3, nw, e4, e⟩ := e
  refine ⟨v, m, ws, nw, e1, e2, e3, e4, ?_⟩
  by_cases hn : m.nUsed ≤ 2 * nw
  · rw [if_pos hn] at e
    cases e
    exact .inl ⟨hn, rfl⟩
  rw [if_neg hn, Res.bind_eq_ok] at e
  obtain ⟨x, e5, e⟩ := e
  refine .inr ⟨by omega, x, e5, ?_⟩
  cases hf : t.useFwd
  · rw [hf] at e
    simp only [Bool.false_eq_true, if_false] at e
    cases e
    exact .inl ⟨rfl, rfl⟩
  · rw [hf] at e
    simp only [if_true, Res.bind_eq_ok] at e
    obtain ⟨nw', e6, e⟩ := e
    refine .inr ⟨rfl, nw', e6, _, rfl, ?_⟩
    by_cases hn' : x.nUsed ≤ 2 * nw'
    · rw [if_pos (by exact hn')] at e
      cases e
      exact .inl ⟨hn', rfl⟩
    · rw [if_neg (by exact hn'), Res.bind_eq_ok] at e
      obtain ⟨y, e7, e⟩ := e
      cases e
      exact .inr ⟨by omega, y, e7, rfl⟩

end Verif
