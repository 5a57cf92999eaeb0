import Verif.Model.Checks
import Verif.Proofs.Guard
import Verif.Spec.Params
import Mathlib.Tactic.Linarith

namespace Verif
open Spec

namespace Dbl
theorem isNaN_isInf_fin {x : Dbl} (h1 : x.isNaN = false) (h2 : x.isInf = false) : ∃ q, x = .fin q := by
  cases x <;> simp_all [isNaN, isInf]

@[simp] theorem isNaN_fin (q : ℚ) : (Dbl.fin q).isNaN = false := rfl
@[simp] theorem isInf_fin (q : ℚ) : (Dbl.fin q).isInf = false := rfl
@[simp] theorem abs_fin (q : ℚ) : (Dbl.fin q).abs = .fin |q| := rfl
end Dbl

theorem checkAllan_ok {t : TauD} (h : t.err = none) (g : Group.sigma.Legal p t) :
    checkAllan t = .ok t := by
  obtain ⟨q, hq, h0⟩ := g
  have : ¬ q ≤ 0 := not_le.mpr h0
  simp [checkAllan, guarded_none _ h, hq, this]

theorem checkAllan_bad {t : TauD} (h : t.err = none) (g : ¬ Group.sigma.Legal p t) :
    ∃ l, checkAllan t = .ok (t.fail .checkAllan l) := by
  rw [checkAllan, guarded_none _ h]
  by_cases h1 : t.sigma.isNaN <;> simp only [h1, if_true, if_false, Bool.false_eq_true]
  · exact ⟨_, rfl⟩
  by_cases h2 : t.sigma.isInf <;> simp only [h2, if_true, if_false, Bool.false_eq_true]
  · exact ⟨_, rfl⟩
  obtain ⟨q, hq⟩ := Dbl.isNaN_isInf_fin (by simpa using h1) (by simpa using h2)
  by_cases h3 : t.sigma.le (.fin 0) <;> simp only [h3, if_true, if_false, Bool.false_eq_true]
  · exact ⟨_, rfl⟩
  · exact absurd ⟨q, hq, by simpa [hq] using h3⟩ g

theorem checkResolution_ok {t : TauD} (h : t.err = none) (g : Group.resolution.Legal p t) :
    checkResolution t = .ok t := by
  obtain ⟨q, hq, h0⟩ := g
  have : ¬ q ≤ 0 := not_le.mpr h0
  simp [checkResolution, guarded_none _ h, hq, this]

theorem checkResolution_bad {t : TauD} (h : t.err = none) (g : ¬ Group.resolution.Legal p t) :
    ∃ l, checkResolution t = .ok (t.fail .checkResolution l) := by
  rw [checkResolution, guarded_none _ h]
  by_cases h1 : t.res.isNaN <;> simp only [h1, if_true, if_false, Bool.false_eq_true]
  · exact ⟨_, rfl⟩
  by_cases h2 : t.res.isInf <;> simp only [h2, if_true, if_false, Bool.false_eq_true]
  · exact ⟨_, rfl⟩
  obtain ⟨q, hq⟩ := Dbl.isNaN_isInf_fin (by simpa using h1) (by simpa using h2)
  by_cases h3 : t.res.le (.fin 0) <;> simp only [h3, if_true, if_false, Bool.false_eq_true]
  · exact ⟨_, rfl⟩
  · exact absurd ⟨q, hq, by simpa [hq] using h3⟩ g

theorem checkEccentricity_ok {t : TauD} (h : t.err = none) (g : Group.eccentricity.Legal p t) :
    checkEccentricity t = .ok t := by
  obtain ⟨q, hq, h0⟩ := g
  have : ¬ q < 0 := not_lt.mpr h0
  simp [checkEccentricity, guarded_none _ h, hq, this]

theorem checkEccentricity_bad {t : TauD} (h : t.err = none) (g : ¬ Group.eccentricity.Legal p t) :
    ∃ l, checkEccentricity t = .ok (t.fail .checkEccentricity l) := by
  rw [checkEccentricity, guarded_none _ h]
  by_cases h1 : t.ecc.isNaN <;> simp only [h1, if_true, if_false, Bool.false_eq_true]
  · exact ⟨_, rfl⟩
  by_cases h2 : t.ecc.isInf <;> simp only [h2, if_true, if_false, Bool.false_eq_true]
  · exact ⟨_, rfl⟩
  obtain ⟨q, hq⟩ := Dbl.isNaN_isInf_fin (by simpa using h1) (by simpa using h2)
  by_cases h3 : t.ecc.lt (.fin 0) <;> simp only [h3, if_true, if_false, Bool.false_eq_true]
  · exact ⟨_, rfl⟩
  · exact absurd ⟨q, hq, by simpa [hq] using h3⟩ g

theorem checkPeriapse_ok {L : Lib} {t : TauD} (h : t.err = none) (g : Group.periapse.Legal L.twoPi t) :
    checkPeriapse L t = .ok t := by
  obtain ⟨q, hq, h0, h1⟩ := g
  have e1 : ¬ q < -L.twoPi := not_lt.mpr h0
  have e2 : ¬ L.twoPi < q := not_lt.mpr h1
  simp [checkPeriapse, guarded_none _ h, hq, e1, e2, Dbl.gt]

theorem checkPeriapse_bad {L : Lib} {t : TauD} (h : t.err = none)
    (g : ¬ Group.periapse.Legal L.twoPi t) :
    ∃ l, checkPeriapse L t = .ok (t.fail .checkPeriapse l) := by
  rw [checkPeriapse, guarded_none _ h]
  by_cases h1 : t.peri.isNaN <;> simp only [h1, if_true, if_false, Bool.false_eq_true]
  · exact ⟨_, rfl⟩
  by_cases h2 : t.peri.isInf <;> simp only [h2, if_true, if_false, Bool.false_eq_true]
  · exact ⟨_, rfl⟩
  obtain ⟨q, hq⟩ := Dbl.isNaN_isInf_fin (by simpa using h1) (by simpa using h2)
  by_cases h3 : t.peri.lt (.fin (-L.twoPi)) <;> simp only [h3, if_true, if_false, Bool.false_eq_true]
  · exact ⟨_, rfl⟩
  by_cases h4 : t.peri.gt (.fin L.twoPi) <;> simp only [h4, if_true, if_false, Bool.false_eq_true]
  · exact ⟨_, rfl⟩
  · exact absurd ⟨q, hq, by simpa [hq] using h3, by simpa [hq, Dbl.gt] using h4⟩ g

theorem checkRange_ok {t : TauD} (h : t.err = none) (g : Group.range.Legal p t) :
    checkRange t = .ok t := by
  obtain ⟨a, b, ha, hb, h0, h1⟩ := g
  have e1 : ¬ a < 0 := not_lt.mpr h0
  have e2 : ¬ b < a := not_lt.mpr h1
  simp [checkRange, guarded_none _ h, ha, hb, e1, e2, Dbl.gt]

theorem checkRange_bad {t : TauD} (h : t.err = none) (g : ¬ Group.range.Legal p t) :
    ∃ l, checkRange t = .ok (t.fail .checkRange l) := by
  rw [checkRange, guarded_none _ h]
  by_cases h1 : t.range0.isNaN <;> simp only [h1, if_true, if_false, Bool.false_eq_true]
  · exact ⟨_, rfl⟩
  by_cases h1' : t.range1.isNaN <;> simp only [h1', if_true, if_false, Bool.false_eq_true]
  · exact ⟨_, rfl⟩
  by_cases h2 : t.range0.isInf <;> simp only [h2, if_true, if_false, Bool.false_eq_true]
  · exact ⟨_, rfl⟩
  by_cases h2' : t.range1.isInf <;> simp only [h2', if_true, if_false, Bool.false_eq_true]
  · exact ⟨_, rfl⟩
  obtain ⟨a, ha⟩ := Dbl.isNaN_isInf_fin (by simpa using h1) (by simpa using h2)
  obtain ⟨b, hb⟩ := Dbl.isNaN_isInf_fin (by simpa using h1') (by simpa using h2')
  by_cases h3 : t.range0.lt (.fin 0) <;> simp only [h3, if_true, if_false, Bool.false_eq_true]
  · exact ⟨_, rfl⟩
  by_cases h4 : t.range0.gt t.range1 <;> simp only [h4, if_true, if_false, Bool.false_eq_true]
  · exact ⟨_, rfl⟩
  · exact absurd ⟨a, b, ha, hb, by simpa [ha] using h3, by simpa [ha, hb, Dbl.gt] using h4⟩ g

/-- The later checks do nothing once one failed. -/
theorem checkKeywords_cases (L : Lib) {t : TauD} (h : t.err = none) :
    (LegalKeywords L.twoPi t ∧ checkKeywords L t = .ok t) ∨
    (∃ g l, FirstOffence L.twoPi t g ∧ checkKeywords L t = .ok (t.fail g.reporter l)) := by
  rw [checkKeywords, guarded_none _ h]
  by_cases g1 : Group.sigma.Legal L.twoPi t
  swap
  · obtain ⟨l, hl⟩ := checkAllan_bad h g1
    have e : (t.fail .checkAllan l).err ≠ none := by simp
    refine .inr ⟨.sigma, l, ⟨g1, [], _, rfl, by simp⟩, ?_⟩
    simp [hl, checkResolution, checkEccentricity, checkPeriapse, checkRange, guarded_err _ e,
      Group.reporter]
  rw [checkAllan_ok h g1, Res.ok_bind]
  by_cases g2 : Group.resolution.Legal L.twoPi t
  swap
  · obtain ⟨l, hl⟩ := checkResolution_bad h g2
    have e : (t.fail .checkResolution l).err ≠ none := by simp
    refine .inr ⟨.resolution, l, ⟨g2, [.sigma], _, rfl, by simpa using g1⟩, ?_⟩
    simp [hl, checkEccentricity, checkPeriapse, checkRange, guarded_err _ e, Group.reporter]
  rw [checkResolution_ok h g2, Res.ok_bind]
  by_cases g3 : Group.eccentricity.Legal L.twoPi t
  swap
  · obtain ⟨l, hl⟩ := checkEccentricity_bad h g3
    have e : (t.fail .checkEccentricity l).err ≠ none := by simp
    refine .inr ⟨.eccentricity, l, ⟨g3, [.sigma, .resolution], _, rfl, by simpa using ⟨g1, g2⟩⟩, ?_⟩
    simp [hl, checkPeriapse, checkRange, guarded_err _ e, Group.reporter]
  rw [checkEccentricity_ok h g3, Res.ok_bind]
  by_cases g4 : Group.periapse.Legal L.twoPi t
  swap
  · obtain ⟨l, hl⟩ := checkPeriapse_bad h g4
    have e : (t.fail .checkPeriapse l).err ≠ none := by simp
    refine .inr ⟨.periapse, l, ⟨g4, [.sigma, .resolution, .eccentricity], _, rfl,
      by simpa using ⟨g1, g2, g3⟩⟩, ?_⟩
    simp [hl, checkRange, guarded_err _ e, Group.reporter]
  rw [checkPeriapse_ok h g4, Res.ok_bind]
  by_cases g5 : Group.range.Legal L.twoPi t
  swap
  · obtain ⟨l, hl⟩ := checkRange_bad h g5
    refine .inr ⟨.range, l, ⟨g5, [.sigma, .resolution, .eccentricity, .periapse], [], rfl,
      by simpa using ⟨g1, g2, g3, g4⟩⟩, ?_⟩
    simp [hl, Group.reporter]
  rw [checkRange_ok h g5]
  refine .inl ⟨?_, rfl⟩
  intro g
  cases g <;> assumption

/-! ### Minimum and maximum -/

theorem Dbl.fin_of_within {a b : ℚ} {x : Dbl} (h1 : x.lt (.fin a) = false)
    (h2 : Dbl.gt x (.fin b) = false) (h3 : x.isNaN = false) : FinSat (fun q => a ≤ q ∧ q ≤ b) x := by
  cases x with
  | nan => simp [Dbl.isNaN] at h3
  | pinf => simp [Dbl.gt, Dbl.lt] at h2
  | ninf => simp [Dbl.lt] at h1
  | fin q => exact ⟨q, rfl, by simpa using h1, by simpa [Dbl.gt] using h2⟩

variable {L : Lib} {l : List Dbl}

theorem arrMin_lt (hL : L.Lawful) (hl : l ≠ []) (hn : NaNFree l) (c : Dbl) :
    (L.arrMin l).lt c = true ↔ ∃ x ∈ l, x.lt c = true := by
  constructor
  · intro h; exact ⟨_, hL.min_mem l hl hn, h⟩
  · rintro ⟨x, hx, h⟩; exact Dbl.lt_of_le_of_lt (hL.min_le l hn x hx) h

theorem arrMin_le (hL : L.Lawful) (hl : l ≠ []) (hn : NaNFree l) (c : Dbl) :
    (L.arrMin l).le c = true ↔ ∃ x ∈ l, x.le c = true := by
  constructor
  · intro h; exact ⟨_, hL.min_mem l hl hn, h⟩
  · rintro ⟨x, hx, h⟩; exact Dbl.le_trans (hL.min_le l hn x hx) h

theorem arrMax_gt (hL : L.Lawful) (hl : l ≠ []) (hn : NaNFree l) (c : Dbl) :
    (L.arrMax l).gt c = true ↔ ∃ x ∈ l, x.gt c = true := by
  constructor
  · intro h; exact ⟨_, hL.max_mem l hl hn, h⟩
  · rintro ⟨x, hx, h⟩; exact Dbl.lt_of_lt_of_le h (hL.le_max l hn x hx)

theorem within_iff (hL : L.Lawful) (hl : l ≠ []) (hn : NaNFree l) (a b : ℚ) :
    AllWithin a b l ↔ (L.arrMin l).lt (.fin a) = false ∧ (L.arrMax l).gt (.fin b) = false := by
  constructor
  · intro h
    constructor
    · obtain ⟨q, e, h1, h2⟩ := h _ (hL.min_mem l hl hn); simp [e, h1]
    · obtain ⟨q, e, h1, h2⟩ := h _ (hL.max_mem l hl hn); simp [e, h2, Dbl.gt]
  · rintro ⟨h1, h2⟩ x hx
    refine Dbl.fin_of_within ?_ ?_ (hn x hx)
    · by_contra hc
      have := (arrMin_lt hL hl hn (.fin a)).2 ⟨x, hx, by simpa using hc⟩
      simp [h1] at this
    · by_contra hc
      have := (arrMax_gt hL hl hn (.fin b)).2 ⟨x, hx, by simpa using hc⟩
      simp [h2] at this

theorem pos_iff (hL : L.Lawful) (hl : l ≠ []) (hn : NaNFree l) :
    AllPos l ↔ (L.arrMin l).le (.fin 0) = false := by
  constructor
  · intro h
    by_contra hc
    obtain ⟨x, hx, hle⟩ := (arrMin_le hL hl hn (.fin 0)).1 (by simpa using hc)
    have := Dbl.not_lt_of_le hle
    simp [h x hx] at this
  · intro h x hx
    by_contra hc
    have h1 := Dbl.le_of_not_lt (a := .fin 0) (b := x) rfl (hn x hx) (by simpa using hc)
    have := (arrMin_le hL hl hn (.fin 0)).2 ⟨x, hx, h1⟩
    simp [h] at this

end Verif
