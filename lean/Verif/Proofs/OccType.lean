import Verif.Model.OccType
import Verif.Proofs.Checks
import Verif.Proofs.Guard
import Verif.Spec.Occ

/-! Lemmas about `checkOccType`. -/
namespace Verif
open Spec

/-- `reverseAll` reverses exactly the listed arrays. -/
theorem reverseAll_eq : ∀ (fs : List Fld) (t : TauD), fs.Nodup →
    (∀ f ∈ fs, ∃ l, t.arr f = some l ∧ l.length = t.arrSize) →
    reverseAll fs t.arrSize t =
      .ok { t with arr := fun g => if g ∈ fs then (t.arr g).map List.reverse else t.arr g } := by
  intro fs
  induction fs with
  | nil => intro t _ _; simp [reverseAll]
  | cons f fs ih =>
    intro t hd ha
    obtain ⟨l, hl, hlen⟩ := ha f (by simp)
    have hf : f ∉ fs := (List.nodup_cons.1 hd).1
    rw [reverseAll, reverseFld, hl]
    simp only
    rw [if_pos (by omega), Res.ok_bind, ← hlen, List.take_length, List.drop_length,
      List.append_nil]
    have e := ih (t.setArr f (some l.reverse)) (List.nodup_cons.1 hd).2 (by
      intro g hg
      obtain ⟨m, hm, hml⟩ := ha g (by simp [hg])
      have : g ≠ f := fun h => hf (h ▸ hg)
      exact ⟨m, by simp [Tau.setArr, this, hm], hml⟩)
    have hs : (t.setArr f (some l.reverse)).arrSize = l.length := by rw [hlen]; rfl
    rw [hs] at e
    rw [e]
    congr 1
    simp only [Tau.setArr]
    congr 1
    funext g
    by_cases h1 : g = f
    · subst h1; simp [hf, hl]
    · simp [h1]

theorem absOf_abs_pos {x : Dbl} (h : (Dbl.fin 0).lt x = true) : x.abs = x := by
  cases x with
  | nan => simp [Dbl.lt] at h
  | pinf => rfl
  | ninf => simp [Dbl.lt] at h
  | fin q => simp at h; simp [Dbl.abs, abs_of_pos h]

theorem absOf_abs {x : Dbl} (h : (Dbl.fin 0).lt x = true ∨ x.lt (.fin 0) = true) :
    AbsOf x x.abs := by
  rcases h with h | h
  · rw [absOf_abs_pos h]; exact .pos h
  · cases x with
    | nan => simp [Dbl.lt] at h
    | pinf => simp [Dbl.lt] at h
    | ninf => exact .ninf
    | fin q => simp at h; simp only [Dbl.abs, abs_of_neg h]; exact .neg h

theorem Spec.AbsOf.pos_right {x y : Dbl} (h : AbsOf x y) : (Dbl.fin 0).lt y = true := by
  cases h with
  | pos h => exact h
  | neg h => simpa using h
  | ninf => rfl

/-- The oriented object that `checkOccType` is meant to produce. -/
def oriented (rev : Bool) (t : TauD) : TauD :=
  { t with
    dx := t.dx.abs
    arr := fun g =>
      if g = .rhoDot then (t.arr g).map fun l => (rows rev l).map Dbl.abs
      else if g ∈ reversedFields then (t.arr g).map (rows rev) else t.arr g }

theorem checkOccType_cases {L : Lib} (hL : L.Lawful) {t : TauD} (h : t.err = none)
    (ha : ∀ f ∈ reversedFields, ∃ l, t.arr f = some l ∧ l.length = t.arrSize)
    {v : List Dbl} (hv : t.arr .rhoDot = some v) (hn : NaNFree v) (hdx : t.dx.isNaN = false) :
    (1 < t.arrSize ∧ OneEvent t.dx v ∧
      checkOccType L t = .ok (oriented (t.dx.lt (.fin 0)) t)) ∨
    (¬ (1 < t.arrSize ∧ OneEvent t.dx v) ∧
      ∃ l, checkOccType L t = .ok (t.fail .checkOccType l)) := by
  have hlen : v.length = t.arrSize := by
    obtain ⟨l, e1, e2⟩ := ha .rhoDot (by simp [reversedFields])
    rw [hv] at e1; cases e1; exact e2
  rw [checkOccType, guarded_none _ h]
  simp only [hv, Option.isNone_some, Bool.false_eq_true, if_false]
  by_cases hs : t.arrSize ≤ 1
  · rw [if_pos hs]; exact .inr ⟨fun c => by omega, _, rfl⟩
  rw [if_neg hs]
  have hne : v ≠ [] := by rintro rfl; simp at hlen; omega
  by_cases h0 : t.dx.eq (.fin 0) = true
  · rw [if_pos h0]
    refine .inr ⟨?_, _, rfl⟩
    rintro ⟨-, (⟨c, -⟩ | ⟨c, -⟩)⟩ <;> revert c h0 <;> cases t.dx <;> simp [Dbl.lt, Dbl.eq] <;>
      intro a <;> rw [a]
  rw [if_neg h0, show rdN (some v) t.arrSize = .ok v by
    rw [rdN_some_le (by omega), ← hlen, List.take_length], Res.ok_bind]
  have hsgn : (Dbl.fin 0).lt t.dx = true ∨ t.dx.lt (.fin 0) = true := by
    revert h0 hdx
    cases t.dx <;> simp only [Dbl.lt, Dbl.eq, Dbl.isNaN, decide_eq_true_eq] <;> try simp
    exact fun a b => a b.symm
  have mmem := hL.min_mem v hne hn
  have xmem := hL.max_mem v hne hn
  have hnm := hn _ mmem
  have hnx := hn _ xmem
  by_cases hpos : Egress v
  · have h1 : (Dbl.fin 0).lt (L.arrMin v) = true := hpos _ mmem
    have h2 : (Dbl.fin 0).lt (L.arrMax v) = true := hpos _ xmem
    have a1 : (L.arrMin v).lt (.fin 0) = false := by
      revert h1; cases L.arrMin v <;> simp [Dbl.lt]; intro a; linarith
    have a2 : (L.arrMax v).lt (.fin 0) = false := by
      revert h2; cases L.arrMax v <;> simp [Dbl.lt]; intro a; linarith
    have a3 : (L.arrMin v).eq (.fin 0) = false := by
      revert h1; cases L.arrMin v <;> simp [Dbl.lt, Dbl.eq]; intro a b; subst b; simp at a
    have a4 : (L.arrMax v).eq (.fin 0) = false := by
      revert h2; cases L.arrMax v <;> simp [Dbl.lt, Dbl.eq]; intro a b; subst b; simp at a
    simp only [Dbl.gt, a1, a2, a3, a4, h1, Bool.false_and, Bool.or_self, Bool.false_eq_true,
      if_false, Bool.and_false, Bool.and_true]
    rcases hsgn with hd | hd
    · have hd' : t.dx.lt (.fin 0) = false := by
        revert hd; cases t.dx <;> simp [Dbl.lt]; intro a; linarith
      refine .inl ⟨by omega, .inl ⟨hd, .inl hpos⟩, ?_⟩
      rw [if_neg (by simp [hd']), if_neg (by simp [hd']), hd']
      congr 1
      have habs : v.map Dbl.abs = v := by
        conv_rhs => rw [← List.map_id v]
        exact List.map_congr_left fun x hx => by simp [absOf_abs_pos (hpos x hx)]
      cases t
      simp only [oriented] at *
      congr 1
      · funext g
        by_cases hg : g = .rhoDot
        · subst hg; simp [rows, hv, habs]
        · simp only [hg, if_false]
          split_ifs with h3
          · exact (congrFun Option.map_id _).symm
          · rfl
      · exact (absOf_abs_pos hd).symm
    · rw [if_pos hd]
      refine .inr ⟨?_, _, rfl⟩
      rintro ⟨-, (⟨c, -⟩ | ⟨-, c⟩)⟩
      · revert c hd; cases t.dx <;> simp [Dbl.lt]; intro a; linarith
      · have := c _ mmem; rw [a1] at this; cases this
  · by_cases hneg : Ingress v
    · have h1 : (L.arrMin v).lt (.fin 0) = true := hneg _ mmem
      have h2 : (L.arrMax v).lt (.fin 0) = true := hneg _ xmem
      have a1 : (Dbl.fin 0).lt (L.arrMin v) = false := by
        revert h1; cases L.arrMin v <;> simp [Dbl.lt]; intro a; linarith
      have a2 : (Dbl.fin 0).lt (L.arrMax v) = false := by
        revert h2; cases L.arrMax v <;> simp [Dbl.lt]; intro a; linarith
      have a3 : (L.arrMin v).eq (.fin 0) = false := by
        revert h1; cases L.arrMin v <;> simp [Dbl.lt, Dbl.eq]; intro a b; subst b; simp at a
      have a4 : (L.arrMax v).eq (.fin 0) = false := by
        revert h2; cases L.arrMax v <;> simp [Dbl.lt, Dbl.eq]; intro a b; subst b; simp at a
      simp only [Dbl.gt, a1, a2, a3, a4, h2, Bool.or_self, Bool.false_eq_true,
        if_false, Bool.and_false, Bool.and_true]
      rcases hsgn with hd | hd
      · have hd' : t.dx.lt (.fin 0) = false := by
          revert hd; cases t.dx <;> simp [Dbl.lt]; intro a; linarith
        rw [if_pos hd]
        refine .inl ⟨by omega, .inl ⟨hd, .inr hneg⟩, ?_⟩
        rw [absRhoDot, hv]
        simp only
        rw [if_pos (by omega), ← hlen, List.take_length, List.drop_length, List.append_nil, hd']
        congr 1
        cases t
        simp only [oriented, Tau.setArr] at *
        congr 1
        · funext g
          by_cases hg : g = .rhoDot
          · subst hg; simp [rows, hv]
          · simp only [hg, if_false]
            split_ifs with h3
            · exact (congrFun Option.map_id _).symm
            · rfl
        · exact (absOf_abs_pos hd).symm
      · have hd' : (Dbl.fin 0).lt t.dx = false := by
          revert hd; cases t.dx <;> simp [Dbl.lt]; intro a; linarith
        rw [if_neg (by simp [hd']), if_pos hd]
        refine .inl ⟨by omega, .inr ⟨hd, hneg⟩, ?_⟩
        rw [reverseAll_eq reversedFields t (by decide) ha, Res.ok_bind, absRhoDot]
        simp only [show Fld.rhoDot ∈ reversedFields by decide, if_true, hv, Option.map_some]
        rw [if_pos (by simp; omega), Res.ok_bind, List.take_of_length_le (by simp; omega),
          List.drop_of_length_le (by simp; omega), List.append_nil, hd]
        congr 1
        simp only [oriented, Tau.setArr]
        congr 1
        funext g
        by_cases hg : g = .rhoDot
        · subst hg; simp [rows, hv]
        · simp only [hg, if_false]
          rfl
    · refine .inr ⟨?_, ?_⟩
      · rintro ⟨-, (⟨-, c | c⟩ | ⟨-, c⟩)⟩
        · exact hpos c
        · exact hneg c
        · exact hneg c
      · have h1 : (L.arrMin v).le (.fin 0) = true := by
          rw [arrMin_le hL hne hn]
          by_contra hc
          refine hpos fun x hx => ?_
          by_contra hx'
          exact hc ⟨x, hx, Dbl.le_of_not_lt rfl (hn x hx) (by simpa using hx')⟩
        have h2 : (Dbl.fin 0).le (L.arrMax v) = true := by
          by_contra hc
          refine hneg fun x hx => ?_
          have := Dbl.le_of_not_lt (a := L.arrMax v) (b := x)
          by_contra hx'
          exact hc (Dbl.le_trans (Dbl.le_of_not_lt (hn x hx) rfl (by simpa using hx'))
            (hL.le_max v hn x hx))
        by_cases b1 : ((L.arrMin v).lt (.fin 0) && (L.arrMax v).gt (.fin 0)) = true
        · rw [if_pos b1]; exact ⟨_, rfl⟩
        · rw [if_neg b1]
          have b2 : ((L.arrMin v).eq (.fin 0) || (L.arrMax v).eq (.fin 0)) = true := by
            revert b1 h1 h2
            cases L.arrMin v <;> cases L.arrMax v <;>
              simp [Dbl.lt, Dbl.eq, Dbl.gt, Dbl.le]
            · intro a b
              rcases a with a | a
              · linarith
              · exact a.symm
            · intro a b
              rcases a with a | a
              · linarith
              · exact a
            · intro a b c
              rcases a with a | a
              · have := c a
                rcases b with b | b
                · linarith
                · exact .inr b.symm
              · exact .inl a
          rw [if_pos b2]; exact ⟨_, rfl⟩

end Verif
