import Verif.Proofs.Driver
import Verif.Props.C18

/-!
# C20: every selectable method reaches its transform
-/
namespace Verif
open Spec

/-- The transforms that a method is meant to call (the Fresnel and Legendre
methods have their own drivers; the FFT method calls none). -/
def Spec.transformsOf (t : TauD) : Xf → Prop := fun f =>
  match t.psinum with
  | .fresnel => f = .fresnel
  | .legendre => f ∈ [Xf.leg .odd, .leg .even, .leg .oddNorm, .leg .evenNorm]
  | .newtonSimpleFFT => False
  | p => transformOf p = some f ∨ interpTransformOf p = some f

/-- **C20**, tables: for each method of the Newton family the lookup returns the
transform of that name, without an error. -/
theorem C20_select (t : TauD) (h : t.err = none) (f : Xf) :
    (transformOf t.psinum = some f → selectNewton t = .ok (t, some f)) ∧
    (interpTransformOf t.psinum = some f → selectNewtonInterp t = .ok (t, some f)) := by
  constructor
  · intro hf
    cases hp : t.psinum <;> rw [hp] at hf <;> simp [transformOf] at hf <;> subst hf <;>
      simp [selectNewton, h, hp, Psi.toNat, newtonTable, rd]
  · intro hf
    cases hp : t.psinum <;> rw [hp] at hf <;> simp [interpTransformOf] at hf <;> subst hf <;>
      simp [selectNewtonInterp, h, hp, Psi.toNat, newtonInterpTable, rd]

/-- **C20**, tables: no value of the enum makes a lookup read outside its table. -/
theorem C20_tables_in_bounds (t : TauD) :
    (selectNewton t).Safe ∧ (selectNewtonInterp t).Safe := by
  constructor
  · unfold selectNewton
    cases t.err <;> cases hp : t.psinum <;>
      simp [Psi.toNat, newtonTable, rd, Res.Safe]
  · unfold selectNewtonInterp
    cases t.err <;> cases hp : t.psinum <;>
      simp [Psi.toNat, newtonInterpTable, rd, Res.Safe]

/-- **C20**, dispatch: the driver of each method. -/
theorem C20_dispatch (N : Num Dbl Cpx) (L : Lib) (sem : Sem) (Z : FFT) (E : Env) (t : TauD)
    (h : t.err = none) :
    diffractionCorrection N L sem Z E t =
      match t.psinum with
      | .fresnel => dcFresnel N L sem E t
      | .legendre => dcLegendre N sem E t
      | .newtonSimpleFFT => dcSimpleFFT N Z E t
      | .newtonRiemann | .newtonFilon01 | .newtonFilon11 | .newtonFilon02 | .newtonFilon12
      | .ellipticNewton | .newtonPerturb => dcNewton N L sem E t
      | .newton4 | .newton8 | .newton16 | .ellipticNewton4 | .ellipticNewton8
      | .ellipticNewton16 => dcPolyNewton N sem E t
      | .none => .ok (t.fail .diffractionCorrection 28) := by
  rw [diffractionCorrection, guarded_none _ h]
  cases t.psinum <;> simp [Psi.toNat]

/-- **C20**, only the transform that belongs to the method is ever called: the
result does not change when all other transforms are replaced. -/
theorem C20_only_own_transform (N : Num Dbl Cpx) (L : Lib) (sem sem' : Sem) (Z : FFT) (E : Env)
    (t : TauD) (hs : ∀ f, transformsOf t f → sem f = sem' f) :
    diffractionCorrection N L sem Z E t = diffractionCorrection N L sem' Z E t := by
  by_cases h : t.err = none
  swap; · rw [diffractionCorrection, guarded_err _ h, diffractionCorrection, guarded_err _ h]
  have newton : ∀ f, transformOf t.psinum = some f → sem f = sem' f →
      dcNewton N L sem E t = dcNewton N L sem' E t := by
    intro f hf hf'
    refine withChecks_congr N h ?_
    simp only [(C20_select t h f).1 hf, Res.ok_bind]
    have : newtonThread N sem f = newtonThread N sem' f := by
      have hb : newtonStep N sem f = newtonStep N sem' f := by
        funext a n s
        simp only [newtonStep, hf']
      funext a b c d
      simp only [newtonThread, hb]
    simp only [this]
  have interp : ∀ f, interpTransformOf t.psinum = some f → sem f = sem' f →
      dcPolyNewton N sem E t = dcPolyNewton N sem' E t := by
    intro f hf hf'
    refine withChecks_congr N h ?_
    simp only [(C20_select t h f).2 hf, Res.ok_bind, hf']
  have none' : ∀ l, selectNewtonInterp t = .ok (t, none) ∨
      selectNewtonInterp t = .ok (t.fail .selectNewtonInterp l, none) →
      dcPolyNewton N sem E t = dcPolyNewton N sem' E t := by
    intro l hl
    refine withChecks_congr N h ?_
    rcases hl with hl | hl <;> simp only [hl, Res.ok_bind]
  rw [C20_dispatch _ _ _ _ _ _ h, C20_dispatch _ _ _ _ _ _ h]
  cases hp : t.psinum <;> simp only <;> simp only [transformsOf, hp] at hs
  case fresnel =>
    refine withChecks_congr N h ?_
    have : fresnelThread N L sem = fresnelThread N L sem' := by
      have hb : fresnelLoop N sem = fresnelLoop N sem' := by
        funext a n s
        simp only [fresnelLoop, hs _ rfl]
      funext a b
      simp only [fresnelThread, hb]
    simp only [this]
  case legendre =>
    refine withChecks_congr N h ?_
    have hl : ∀ v, sem (.leg v) = sem' (.leg v) := by
      intro v; cases v <;> exact hs _ (by simp)
    simp only [hl]
  case newtonRiemann => exact newton _ (by rw [hp]; rfl) (hs _ (.inl rfl))
  case newtonFilon01 => exact newton _ (by rw [hp]; rfl) (hs _ (.inl rfl))
  case newtonFilon11 => exact newton _ (by rw [hp]; rfl) (hs _ (.inl rfl))
  case newtonFilon02 => exact newton _ (by rw [hp]; rfl) (hs _ (.inl rfl))
  case newtonFilon12 => exact newton _ (by rw [hp]; rfl) (hs _ (.inl rfl))
  case ellipticNewton => exact newton _ (by rw [hp]; rfl) (hs _ (.inl rfl))
  case newtonPerturb => exact newton _ (by rw [hp]; rfl) (hs _ (.inl rfl))
  case newton4 => exact interp _ (by rw [hp]; rfl) (hs _ (.inr rfl))
  case newton8 => exact interp _ (by rw [hp]; rfl) (hs _ (.inr rfl))
  case newton16 => exact interp _ (by rw [hp]; rfl) (hs _ (.inr rfl))
  all_goals
    exact none' 0 (.inl (by simp [selectNewtonInterp, h, hp, Psi.toNat, newtonInterpTable, rd]))

/-- **C20**, methods without an implementation: an error, and nothing else
happens (in particular no transform is called and `T_out` is untouched). -/
theorem C20_unimplemented (N : Num Dbl Cpx) (L : Lib) (sem : Sem) (Z : FFT) (E : Env) (t u : TauD)
    (h : t.err = none) (hp : ¬ Implemented t.psinum)
    (e : diffractionCorrection N L sem Z E t = .ok u) :
    ∃ fn l, u = t.fail fn l := by
  rw [C20_dispatch _ _ _ _ _ _ h] at e
  have hs : t.psinum ≠ .none → selectNewtonInterp t = .ok (t, none) := by
    intro hn
    cases hq : t.psinum <;> simp [Implemented, hq] at hp <;>
      first
      | exact absurd hq hn
      | simp [selectNewtonInterp, h, hq, Psi.toNat, newtonInterpTable, rd]
  have hd : t.psinum ≠ .none → dcPolyNewton N sem E t = .ok u → ∃ fn l, u = t.fail fn l := by
    intro hn e
    rcases withChecks_cases N _ h e with h' | ⟨-, -, e⟩
    · exact h'
    · simp only [hs hn, Res.bind_eq_ok, Res.ok_bind] at e
      obtain ⟨i, -, e⟩ := e
      simp only [h, Option.isSome_none, Bool.false_eq_true, if_false] at e
      cases e
      exact ⟨_, _, rfl⟩
  cases hq : t.psinum <;> simp [Implemented, hq] at hp <;> simp only [hq] at e hd
  · exact hd (by simp) e
  · exact hd (by simp) e
  · exact hd (by simp) e
  · cases e; exact ⟨_, _, rfl⟩

/-- **C20**, the parser only accepts implemented methods. -/
theorem C20_accepted_implemented (u : List Char → Fin 256) (t : TauD) (h : t.err = none)
    (s : List Char) (he : (setPsiType u (some s) true t).1.err = none) :
    Implemented (setPsiType u (some s) true t).1.psinum := by
  rcases C18_accept_sound u t h s he with ⟨p, hp, -, e⟩ | ⟨x, -, -, e⟩ | ⟨x, -, -, e⟩
  · rw [e]
    simp only [methodNames, List.mem_cons, List.not_mem_nil, or_false] at hp
    rcases hp with rfl | rfl | rfl | rfl | rfl | rfl | rfl | rfl | rfl | rfl | rfl | rfl <;>
      simp [Implemented]
  · rw [e]; simp [Implemented]
  · rw [e]; simp [Implemented]

example : transformOf Psi.newtonFilon12 = some .filon12 := rfl
example : interpTransformOf Psi.newton16 = some .newton16 := rfl
example : ¬ Implemented .ellipticNewton8 ∧ Implemented .newtonSimpleFFT := by simp [Implemented]
example : ∃ t : TauD, t.err = none ∧ ¬ Implemented t.psinum :=
  ⟨{ tauInit exactLib with psinum := .ellipticNewton4 }, rfl, by simp [Implemented]⟩
/-- Two different meanings of the transforms that agree on the method's own one. -/
example : ∃ (sem sem' : Sem) (t : TauD), t.psinum = .newtonRiemann ∧ sem ≠ sem' ∧
    ∀ f, transformsOf t f → sem f = sem' f := by
  refine ⟨fun _ _ _ _ _ _ _ => .ub .oobRead, fun f _ _ _ _ _ _ =>
    if f = .riemann then .ub .oobRead else .ub .nullDeref,
    { tauInit exactLib with psinum := .newtonRiemann }, rfl, ?_, ?_⟩
  · intro h
    have := congrFun (congrFun (congrFun (congrFun (congrFun (congrFun (congrFun h .filon01)
      (tauInit exactLib)) []) []) []) 0) 0
    simp at this
  · intro f hf
    simp [transformsOf, transformOf, interpTransformOf] at hf
    subst hf
    simp

end Verif
