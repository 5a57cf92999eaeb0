import Verif.Model.State

/-! Specifications of legal parameters and geometries (C04, C05). -/
namespace Verif.Spec

/-- A finite double with value satisfying `p`. -/
def FinSat (p : ℚ → Prop) (x : Dbl) : Prop := ∃ q, x = .fin q ∧ p q

/-- The five keyword groups in the order in which they are documented to be
checked. -/
inductive Group
  | sigma | resolution | eccentricity | periapse | range
  deriving DecidableEq, Repr

/-- Documented order. -/
def Group.order : List Group := [.sigma, .resolution, .eccentricity, .periapse, .range]

/-- Legal values of a keyword group; `twoPi` is the value of 2 pi in use. -/
def Group.Legal (twoPi : ℚ) (t : TauD) : Group → Prop
  | .sigma => FinSat (0 < ·) t.sigma
  | .resolution => FinSat (0 < ·) t.res
  | .eccentricity => FinSat (0 ≤ ·) t.ecc
  | .periapse => FinSat (fun q => -twoPi ≤ q ∧ q ≤ twoPi) t.peri
  | .range => ∃ a b : ℚ, t.range0 = .fin a ∧ t.range1 = .fin b ∧ 0 ≤ a ∧ a ≤ b

/-- The check function in whose name a group is reported. -/
def Group.reporter : Group → Fn
  | .sigma => .checkAllan
  | .resolution => .checkResolution
  | .eccentricity => .checkEccentricity
  | .periapse => .checkPeriapse
  | .range => .checkRange

/-- All keywords legal. -/
def LegalKeywords (twoPi : ℚ) (t : TauD) : Prop := ∀ g : Group, g.Legal twoPi t

/-- `g` is the first offender: illegal, and everything before it is legal. -/
def FirstOffence (twoPi : ℚ) (t : TauD) (g : Group) : Prop :=
  ¬ g.Legal twoPi t ∧ ∃ pre post, Group.order = pre ++ g :: post ∧ ∀ h ∈ pre, h.Legal twoPi t

/-- Every element of a list lies in the closed interval `[a, b]`. -/
def AllWithin (a b : ℚ) (l : List Dbl) : Prop := ∀ x ∈ l, FinSat (fun q => a ≤ q ∧ q ≤ b) x

/-- Every element is positive (infinity allowed). -/
def AllPos (l : List Dbl) : Prop := ∀ x ∈ l, Dbl.lt (.fin 0) x = true

/-- Legal geometry; `prod q` is the value that `1.99 * q` has in the arithmetic in use. -/
structure LegalGeometry (prod : ℚ → Dbl) (phi B D rho : List Dbl) (dx res : Dbl) : Prop where
  azimuth : AllWithin (-360) 360 phi
  opening : AllWithin (-360) 360 B
  distance : AllPos D
  radius : AllPos rho
  spacing : ∃ q, dx = .fin q ∧ q ≠ 0 ∧ Dbl.le (prod |q|) res = true

end Verif.Spec
