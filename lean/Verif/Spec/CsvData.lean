import Verif.Base.Dbl

/-!
# Specification vocabulary for the combination of the CSV files

Independent of the model.
-/
namespace Verif.Spec

/-- The difference quotients of consecutive samples. -/
def quotients (div sub : Dbl → Dbl → Dbl) : List Dbl → List Dbl → List Dbl
  | r0 :: r1 :: rs, t0 :: t1 :: ts =>
    div (sub r1 r0) (sub t1 t0) :: quotients div sub (r1 :: rs) (t1 :: ts)
  | _, _ => []

/-- The two kinds of (monotone) occultations. -/
inductive Side
  | ingress | egress
  deriving DecidableEq, Repr

/-- The order of the geometry rows for an occultation: by increasing radius. -/
def Side.order : Side → List Dbl → List Dbl
  | .egress, l => l
  | .ingress, l => l.reverse

/-- The radial velocity has the wrong sign. -/
def Side.wrong : Side → Dbl → Bool
  | .egress, v => v.le (.fin 0)
  | .ingress, v => v.ge (.fin 0)

/-- The entries of a column in the rows that are used: the rows at the beginning whose radial
velocity has the wrong sign are left out. -/
def Side.retained (s : Side) (v l : List Dbl) : List Dbl :=
  (((s.order v).zip (s.order l)).dropWhile fun p => s.wrong p.1).map (·.2)

/-- The difference quotients (NaN left out) show an occultation of the given kind. -/
def Side.shows : Side → List Dbl → Prop
  | .egress, q => (∃ d ∈ q, d.isNaN = false) ∧ ∀ d ∈ q, d.isNaN = false → Dbl.gt d (.fin 0) = true
  | .ingress, q => ∀ d ∈ q, d.isNaN = false → Dbl.lt d (.fin 0) = true

end Verif.Spec
