import Verif.Base.Res
import Mathlib.Tactic.Linarith
import Mathlib.Data.Rat.Defs
import Mathlib.Algebra.Order.Ring.Rat

/-!
# C `double`

Values are NaN, the infinities or a rational number; comparisons are the IEEE
ones.  Signed zeros are identified and every rational is allowed (the set of
representable numbers plays no role: rounding is a parameter, see `Num`).
-/
namespace Verif

/-- A C `double`. Simplifications: `+0`/`-0` identified, NaN payloads ignored,
finite values are arbitrary rationals. -/
inductive Dbl
  | nan | pinf | ninf
  | fin (q : ℚ)
  deriving DecidableEq

namespace Dbl

/-- IEEE `a < b` (false if one side is NaN). -/
def lt : Dbl → Dbl → Bool
  | nan, _ => false
  | _, nan => false
  | ninf, ninf => false
  | ninf, _ => true
  | _, ninf => false
  | pinf, _ => false
  | fin _, pinf => true
  | fin a, fin b => decide (a < b)

/-- IEEE `a == b`. -/
def eq : Dbl → Dbl → Bool
  | nan, _ => false
  | _, nan => false
  | pinf, pinf => true
  | ninf, ninf => true
  | fin a, fin b => decide (a = b)
  | _, _ => false

/-- IEEE `a <= b`. -/
def le (a b : Dbl) : Bool := lt a b || eq a b

/-- `a > b` and `a >= b`. -/
def gt (a b : Dbl) : Bool := lt b a
def ge (a b : Dbl) : Bool := le b a

/-- `tmpl_Double_Is_NaN`. -/
def isNaN : Dbl → Bool
  | nan => true
  | _ => false

/-- `tmpl_Double_Is_Inf`. -/
def isInf : Dbl → Bool
  | pinf => true
  | ninf => true
  | _ => false

/-- `tmpl_Double_Abs` (exact). -/
def abs : Dbl → Dbl
  | nan => nan
  | pinf => pinf
  | ninf => pinf
  | fin q => fin |q|

/-- Unary minus (exact). -/
def neg : Dbl → Dbl
  | nan => nan
  | pinf => ninf
  | ninf => pinf
  | fin q => fin (-q)

/-- `(size_t)x`: undefined for NaN and for values whose truncation does not fit
(C11 6.3.1.4); `size_t` has 64 bits. -/
def toSize : Dbl → Res Nat
  | fin q => if -1 < q ∧ q < 18446744073709551616 then .ok q.floor.toNat else .ub .badCast
  | _ => .ub .badCast

instance : Inhabited Dbl := ⟨nan⟩

@[simp] theorem lt_fin (a b : ℚ) : lt (fin a) (fin b) = decide (a < b) := rfl
@[simp] theorem eq_fin (a b : ℚ) : eq (fin a) (fin b) = decide (a = b) := rfl
@[simp] theorem le_fin (a b : ℚ) : le (fin a) (fin b) = decide (a ≤ b) := by
  simp only [le, lt_fin, eq_fin, ← Bool.decide_or, ← le_iff_lt_or_eq]
@[simp] theorem lt_nan_left (a : Dbl) : lt nan a = false := by cases a <;> rfl
@[simp] theorem lt_nan_right (a : Dbl) : lt a nan = false := by cases a <;> rfl
@[simp] theorem le_nan_left (a : Dbl) : le nan a = false := by cases a <;> rfl
@[simp] theorem le_nan_right (a : Dbl) : le a nan = false := by cases a <;> rfl

/-- `lt` between non-NaN values is a strict total order; these are the facts the
proofs use. -/
theorem lt_irrefl (a : Dbl) : lt a a = false := by cases a <;> simp [lt]

theorem lt_trans {a b c : Dbl} (h1 : lt a b = true) (h2 : lt b c = true) : lt a c = true := by
  cases a <;> cases b <;> cases c <;> simp_all [lt]
  linarith

theorem lt_of_lt_of_le {a b c : Dbl} (h1 : lt a b = true) (h2 : le b c = true) :
    lt a c = true := by
  cases a <;> cases b <;> cases c <;> simp_all [lt, le, eq]
  rcases h2 with h2 | h2 <;> linarith

theorem lt_of_le_of_lt {a b c : Dbl} (h1 : le a b = true) (h2 : lt b c = true) :
    lt a c = true := by
  cases a <;> cases b <;> cases c <;> simp_all [lt, le, eq]
  rcases h1 with h1 | h1 <;> linarith

theorem le_trans {a b c : Dbl} (h1 : le a b = true) (h2 : le b c = true) :
    le a c = true := by
  cases a <;> cases b <;> cases c <;> simp_all [le, lt, eq]
  rcases h1 with h1 | h1 <;> rcases h2 with h2 | h2
  · left; linarith
  · left; linarith
  · left; linarith
  · right; linarith

theorem le_of_lt {a b : Dbl} (h : lt a b = true) : le a b = true := by simp [le, h]

theorem not_lt_of_le {a b : Dbl} (h : le a b = true) : lt b a = false := by
  cases a <;> cases b <;> simp_all [le, lt, eq]
  rcases h with h | h <;> linarith

theorem le_of_not_lt {a b : Dbl} (ha : a.isNaN = false) (hb : b.isNaN = false)
    (h : lt a b = false) : le b a = true := by
  cases a <;> cases b <;> simp_all [le, lt, eq, isNaN]
  rcases lt_or_eq_of_le h with h | h
  · exact Or.inl h
  · exact Or.inr h

theorem not_nan_of_lt_left {a b : Dbl} (h : lt a b = true) : a.isNaN = false := by
  cases a <;> simp_all [isNaN]

theorem not_nan_of_lt_right {a b : Dbl} (h : lt a b = true) : b.isNaN = false := by
  cases b <;> simp_all [isNaN]

theorem not_nan_of_le_left {a b : Dbl} (h : le a b = true) : a.isNaN = false := by
  cases a <;> simp_all [isNaN]

theorem not_nan_of_le_right {a b : Dbl} (h : le a b = true) : b.isNaN = false := by
  cases b <;> simp_all [isNaN]

end Dbl
end Verif
