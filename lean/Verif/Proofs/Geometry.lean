import Verif.Proofs.Checks

namespace Verif
open Spec

/-- What an ok array looks like: present, of length exactly `arrSize`. -/
def HasArr (t : TauD) (f : Fld) (l : List Dbl) : Prop := t.arr f = some l ∧ l.length = t.arrSize

theorem HasArr.rdN {t : TauD} {f : Fld} {l : List Dbl} (h : HasArr t f l) :
    rdN (t.arr f) t.arrSize = .ok l := by
  rw [h.1, ← h.2, rdN_some_le (le_refl _), List.take_length]

theorem HasArr.fail {t : TauD} {f : Fld} {l : List Dbl} (h : HasArr t f l) (fn n) :
    HasArr (t.fail fn n) f l := h

/-- Outcome of a check: unchanged, or an error with nothing else changed. -/
inductive Outcome (P : Prop) (fn : Fn) (t : TauD) (r : Res TauD) : Prop
  | pass (h : P) (e : r = .ok t) : Outcome P fn t r
  | reject (h : ¬ P) (l : Nat) (e : r = .ok (t.fail fn l)) : Outcome P fn t r

variable {L : Lib} {t : TauD}

theorem checkAzimuth_outcome (hL : L.Lawful) (h : t.err = none) {l : List Dbl}
    (ha : HasArr t .phi l) (hl : l ≠ []) (hn : NaNFree l) :
    Outcome (AllWithin (-360) 360 l) .checkAzimuth t (checkAzimuth L t) := by
  have e : checkAzimuth L t = (
    if (L.arrMin l).isNaN || (L.arrMax l).isNaN then .ok (t.fail .checkAzimuth 114)
    else if (L.arrMin l).isInf || (L.arrMax l).isInf then .ok (t.fail .checkAzimuth 126)
    else if (L.arrMin l).lt (.fin (-360)) then .ok (t.fail .checkAzimuth 139)
    else if (L.arrMax l).gt (.fin 360) then .ok (t.fail .checkAzimuth 151)
    else .ok t) := by
    rw [checkAzimuth, guarded_none _ h, ha.rdN]; simp [ha.1]
  have n1 := hn _ (hL.min_mem l hl hn)
  have n2 := hn _ (hL.max_mem l hl hn)
  by_cases hin : AllWithin (-360) 360 l
  · refine .pass hin ?_
    obtain ⟨q1, e1, -⟩ := hin _ (hL.min_mem l hl hn)
    obtain ⟨q2, e2, -⟩ := hin _ (hL.max_mem l hl hn)
    have := (within_iff hL hl hn _ _).1 hin
    rw [e, this.1, this.2, e1, e2]; simp
  · rw [within_iff hL hl hn] at hin
    have key : (∃ n, checkAzimuth L t = .ok (t.fail .checkAzimuth n)) := by
      rw [e]
      split_ifs
      · exact ⟨_, rfl⟩
      · exact ⟨_, rfl⟩
      · exact ⟨_, rfl⟩
      · exact ⟨_, rfl⟩
      · simp_all
    obtain ⟨n, hn'⟩ := key
    exact .reject (by rw [within_iff hL hl hn]; exact hin) n hn'

theorem checkOpening_outcome (hL : L.Lawful) (h : t.err = none) {l : List Dbl}
    (ha : HasArr t .B l) (hl : l ≠ []) (hn : NaNFree l) :
    Outcome (AllWithin (-360) 360 l) .checkOpening t (checkOpening L t) := by
  have e : checkOpening L t = (
    if (L.arrMin l).lt (.fin (-360)) then .ok (t.fail .checkOpening 111)
    else if (L.arrMax l).gt (.fin 360) then .ok (t.fail .checkOpening 123)
    else .ok t) := by
    rw [checkOpening, guarded_none _ h, ha.rdN]; simp [ha.1]
  rw [e]
  split_ifs with h1 h2
  · exact .reject (by rw [within_iff hL hl hn]; simp [h1]) _ rfl
  · exact .reject (by rw [within_iff hL hl hn]; simp [h2]) _ rfl
  · exact .pass ((within_iff hL hl hn _ _).2 ⟨by simpa using h1, by simpa using h2⟩) rfl

theorem checkRingDistance_outcome (hL : L.Lawful) (h : t.err = none) {l : List Dbl}
    (ha : HasArr t .D l) (hl : l ≠ []) (hn : NaNFree l) :
    Outcome (AllPos l) .checkRingDistance t (checkRingDistance L t) := by
  have e : checkRingDistance L t = (
    if (L.arrMin l).le (.fin 0) then .ok (t.fail .checkRingDistance 110) else .ok t) := by
    rw [checkRingDistance, guarded_none _ h, ha.rdN]; simp [ha.1]
  rw [e]
  split_ifs with h1
  · exact .reject (by rw [pos_iff hL hl hn]; simp [h1]) _ rfl
  · exact .pass ((pos_iff hL hl hn).2 (by simpa using h1)) rfl

theorem checkRingRadius_outcome (hL : L.Lawful) (h : t.err = none) {l : List Dbl}
    (ha : HasArr t .rho l) (hl : l ≠ []) (hn : NaNFree l) :
    Outcome (AllPos l) .checkRingRadius t (checkRingRadius L t) := by
  have e : checkRingRadius L t = (
    if (L.arrMin l).le (.fin 0) then .ok (t.fail .checkRingRadius 109) else .ok t) := by
    rw [checkRingRadius, guarded_none _ h, ha.rdN]; simp [ha.1]
  rw [e]
  split_ifs with h1
  · exact .reject (by rw [pos_iff hL hl hn]; simp [h1]) _ rfl
  · exact .pass ((pos_iff hL hl hn).2 (by simpa using h1)) rfl

theorem checkDisplacement_outcome (N : Num Dbl Cpx) (h : t.err = none)
    (hN : ∀ q : ℚ, (N.mul (N.lit (199 / 100)) (.fin q)).isNaN = false) (hr : t.res.isNaN = false) :
    Outcome (∃ q, t.dx = .fin q ∧ q ≠ 0 ∧ Dbl.le (N.mul (N.lit (199 / 100)) (.fin |q|)) t.res = true)
      .checkDisplacement t (checkDisplacement N t) := by
  rw [checkDisplacement, guarded_none _ h]
  split_ifs with h1 h2 h3 h4
  · exact .reject (by rintro ⟨q, e, -⟩; simp [e] at h1) _ rfl
  · exact .reject (by rintro ⟨q, e, -⟩; simp [e] at h2) _ rfl
  · exact .reject (by rintro ⟨q, e, h0, -⟩; simp [e] at h3; exact h0 h3) _ rfl
  · refine .reject ?_ _ rfl
    rintro ⟨q, e, h0, hle⟩
    rw [e, Dbl.abs_fin] at h4
    have := Dbl.not_lt_of_le hle
    simp [h4] at this
  · obtain ⟨q, hq⟩ := Dbl.isNaN_isInf_fin (by simpa using h1) (by simpa using h2)
    refine .pass ⟨q, hq, ?_, ?_⟩ rfl
    · simpa [hq] using h3
    · rw [hq, Dbl.abs_fin] at h4
      exact Dbl.le_of_not_lt hr (hN _) (by simpa using h4)

theorem checkGeometry_cases (hL : L.Lawful) (N : Num Dbl Cpx) (h : t.err = none)
    {phi B D rho : List Dbl} (h1 : HasArr t .phi phi) (h2 : HasArr t .B B) (h3 : HasArr t .D D)
    (h4 : HasArr t .rho rho) (hs : t.arrSize ≠ 0) (n1 : NaNFree phi) (n2 : NaNFree B)
    (n3 : NaNFree D) (n4 : NaNFree rho)
    (hN : ∀ q : ℚ, (N.mul (N.lit (199 / 100)) (.fin q)).isNaN = false) (hr : t.res.isNaN = false) :
    (LegalGeometry (fun q => N.mul (N.lit (199 / 100)) (.fin q)) phi B D rho t.dx t.res ∧
      checkGeometry L N t = .ok t) ∨
    (¬ LegalGeometry (fun q => N.mul (N.lit (199 / 100)) (.fin q)) phi B D rho t.dx t.res ∧
      ∃ f l, checkGeometry L N t = .ok (t.fail f l)) := by
  have ne : ∀ {l : List Dbl}, l.length = t.arrSize → l ≠ [] := by
    intro l hl e; subst e; simp at hl; omega
  have o1 := checkAzimuth_outcome hL h h1 (ne h1.2) n1
  have o2 := checkDisplacement_outcome N h hN hr
  have o3 := checkOpening_outcome hL h h2 (ne h2.2) n2
  have o4 := checkRingDistance_outcome hL h h3 (ne h3.2) n3
  have o5 := checkRingRadius_outcome hL h h4 (ne h4.2) n4
  rw [checkGeometry, guarded_none _ h]
  have hs : ∀ (fn l), (checkDisplacement N (t.fail fn l) = .ok (t.fail fn l)) ∧
      (checkOpening L (t.fail fn l) = .ok (t.fail fn l)) ∧
      (checkRingDistance L (t.fail fn l) = .ok (t.fail fn l)) ∧
      (checkRingRadius L (t.fail fn l) = .ok (t.fail fn l)) := by
    intro fn l
    have : (t.fail fn l).err ≠ none := by simp
    exact ⟨guarded_err _ this, guarded_err _ this, guarded_err _ this, guarded_err _ this⟩
  cases o1 with
  | reject p l e => exact .inr ⟨fun g => p g.azimuth, .checkAzimuth, l, by simp [e, hs]⟩
  | pass p1 e =>
  rw [e, Res.ok_bind]
  cases o2 with
  | reject p l e => exact .inr ⟨fun g => p g.spacing, .checkDisplacement, l, by simp [e, hs]⟩
  | pass p2 e =>
  rw [e, Res.ok_bind]
  cases o3 with
  | reject p l e => exact .inr ⟨fun g => p g.opening, .checkOpening, l, by simp [e, hs]⟩
  | pass p3 e =>
  rw [e, Res.ok_bind]
  cases o4 with
  | reject p l e => exact .inr ⟨fun g => p g.distance, .checkRingDistance, l, by simp [e, hs]⟩
  | pass p4 e =>
  rw [e, Res.ok_bind]
  cases o5 with
  | reject p l e => exact .inr ⟨fun g => p g.radius, .checkRingRadius, l, by simp [e]⟩
  | pass p5 e => exact .inl ⟨⟨p1, p3, p4, p5, p2⟩, by rw [e]⟩

end Verif
