import Verif.Model.State

/-!
# Specification of the occultation type check (C07, C08)
-/
namespace Verif.Spec

/-- All velocities are positive (radius grows: egress). -/
def Egress (v : List Dbl) : Prop := ∀ x ∈ v, (Dbl.fin 0).lt x = true
/-- All velocities are negative (radius shrinks: ingress). -/
def Ingress (v : List Dbl) : Prop := ∀ x ∈ v, x.lt (.fin 0) = true

/-- The spacing and velocities describe one event, consistently. -/
def OneEvent (dx : Dbl) (v : List Dbl) : Prop :=
  ((Dbl.fin 0).lt dx = true ∧ (Egress v ∨ Ingress v)) ∨ (dx.lt (.fin 0) = true ∧ Ingress v)

/-- `y` has the absolute value of `x`. -/
inductive AbsOf : Dbl → Dbl → Prop
  | pos {x : Dbl} : (Dbl.fin 0).lt x = true → AbsOf x x
  | neg {q : ℚ} : q < 0 → AbsOf (.fin q) (.fin (-q))
  | ninf : AbsOf .ninf .pinf

/-- Rows in the given order or reversed. -/
def rows {α : Type} (rev : Bool) (l : List α) : List α := if rev then l.reverse else l

end Verif.Spec
