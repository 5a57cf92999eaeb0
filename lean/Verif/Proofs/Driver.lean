import Verif.Proofs.Guard
import Verif.Proofs.Loop

/-! Lemmas about the checks at the top of the drivers and about dispatch. -/
namespace Verif

theorem checkMember_eq {R : Type} (t : TauD) (p : Option R) (l : Nat) (u : TauD)
    (rest : Res TauD) (e : checkMember t p l rest = .ok u) :
    u = t.fail .checkCoreData l ∨ (p ≠ none ∧ rest = .ok u) := by
  cases p with
  | none => cases e; exact .inl rfl
  | some a => exact .inr ⟨by simp, e⟩

/-- All pointer members that `Check_Core_Data` wants are there. -/
structure CoreThere (t : TauD) : Prop where
  tIn : t.carr .tIn ≠ none
  tOut : t.carr .tOut ≠ none
  rho : t.arr .rho ≠ none
  F : t.arr .F ≠ none
  phi : t.arr .phi ≠ none
  k : t.arr .k ≠ none
  rhoDot : t.arr .rhoDot ≠ none
  B : t.arr .B ≠ none
  D : t.arr .D ≠ none
  w : t.arr .w ≠ none
  rx : t.arr .rx ≠ none
  ry : t.arr .ry ≠ none
  rz : t.arr .rz ≠ none

theorem checkCoreData_cases {t : TauD} (h : t.err = none) :
    (CoreThere t ∧ checkCoreData t = .ok t) ∨
    (¬ CoreThere t ∧ ∃ l, checkCoreData t = .ok (t.fail .checkCoreData l)) := by
  rw [checkCoreData, guarded_none _ h]
  have key : ∀ (rest : Res TauD) {R : Type} (p : Option R) (l : Nat),
      (p ≠ none ∧ checkMember t p l rest = rest) ∨
      (p = none ∧ checkMember t p l rest = .ok (t.fail .checkCoreData l)) := by
    intro rest R p l
    cases p with
    | none => exact .inr ⟨rfl, rfl⟩
    | some a => exact .inl ⟨by simp, rfl⟩
  rcases key (checkMember t (t.carr .tOut) 102 <| checkMember t (t.arr .rho) 103 <|
    checkMember t (t.arr .F) 104 <| checkMember t (t.arr .phi) 105 <|
    checkMember t (t.arr .k) 106 <| checkMember t (t.arr .rhoDot) 107 <|
    checkMember t (t.arr .B) 108 <| checkMember t (t.arr .D) 109 <|
    checkMember t (t.arr .w) 110 <| checkMember t (t.arr .rx) 111 <|
    checkMember t (t.arr .ry) 112 <| checkMember t (t.arr .rz) 113 <| .ok t)
    (t.carr .tIn) 101 with ⟨a1, e⟩ | ⟨a, e⟩
  swap; · exact .inr ⟨fun c => c.tIn a, _, e⟩
  simp only [e]
  repeat (first
    | (rcases key _ _ _ with ⟨_, e⟩ | ⟨a, e⟩
       swap
       · refine .inr ⟨fun c => ?_, _, e⟩
         first | exact c.tOut a | exact c.rho a | exact c.F a | exact c.phi a | exact c.k a
               | exact c.rhoDot a | exact c.B a | exact c.D a | exact c.w a | exact c.rx a
               | exact c.ry a | exact c.rz a
       rw [e]; clear e))
  refine .inl ⟨?_, rfl⟩
  constructor <;> assumption

/-- `checkDataRange` keeps the object or sets an error. -/
theorem checkDataRange_cases (N : Num Dbl Cpx) {t u : TauD} (h : t.err = none)
    (e : checkDataRange N t = .ok u) :
    (∃ l, u = t.fail .checkDataRange l) ∨
    (u = t ∧ t.arr .w ≠ none ∧ t.dx.le (.fin 0) = false ∧
      dataRangeLoop N t (N.div (N.lit (1/2)) t.dx) t.start t.nUsed = .ok none) := by
  rw [checkDataRange, guarded_none _ h] at e
  split at e
  · cases e; exact .inl ⟨_, rfl⟩
  rename_i hw
  split at e
  · cases e; exact .inl ⟨_, rfl⟩
  rename_i hdx
  rw [Res.bind_eq_ok] at e
  obtain ⟨r, e1, e⟩ := e
  cases r with
  | some l => cases e; exact .inl ⟨_, rfl⟩
  | none => cases e; exact .inr ⟨rfl, by simpa using hw, by simpa using hdx, e1⟩

/-- A driver either stops at its checks or runs its body on the unchanged object. -/
theorem withChecks_cases (N : Num Dbl Cpx) (body : TauD → Res TauD) {t u : TauD}
    (h : t.err = none) (e : withChecks N body t = .ok u) :
    (∃ fn l, u = t.fail fn l) ∨
    (CoreThere t ∧ checkDataRange N t = .ok t ∧ body t = .ok u) := by
  rw [withChecks] at e
  rcases checkCoreData_cases h with ⟨hc, e1⟩ | ⟨-, l, e1⟩
  · rw [e1, Res.ok_bind, Res.bind_eq_ok] at e
    obtain ⟨v, e2, e3⟩ := e
    rcases checkDataRange_cases N h e2 with ⟨l, rfl⟩ | ⟨rfl, -⟩
    · rw [guarded_err _ (by simp)] at e3
      cases e3
      exact .inl ⟨_, _, rfl⟩
    · rw [guarded_none _ h] at e3
      exact .inr ⟨hc, e2, e3⟩
  · rw [e1, Res.ok_bind, checkDataRange, guarded_err _ (by simp), Res.ok_bind,
      guarded_err _ (by simp)] at e
    cases e
    exact .inl ⟨_, _, rfl⟩

theorem withChecks_congr (N : Num Dbl Cpx) {f g : TauD → Res TauD} {t : TauD} (h : t.err = none)
    (hfg : f t = g t) : withChecks N f t = withChecks N g t := by
  rw [withChecks, withChecks]
  rcases checkCoreData_cases h with ⟨hc, e1⟩ | ⟨-, l, e1⟩
  · rw [e1, Res.ok_bind, Res.ok_bind]
    cases e2 : checkDataRange N t with
    | ub w => rfl
    | ok v =>
      rcases checkDataRange_cases N h e2 with ⟨l, rfl⟩ | ⟨rfl, -⟩
      · rw [Res.ok_bind, Res.ok_bind, guarded_err _ (by simp), guarded_err _ (by simp)]
      · simp [guarded_none, h, hfg]
  · rw [e1, Res.ok_bind, Res.ok_bind, checkDataRange, guarded_err _ (by simp), Res.ok_bind,
      Res.ok_bind, guarded_err _ (by simp), guarded_err _ (by simp)]

end Verif
