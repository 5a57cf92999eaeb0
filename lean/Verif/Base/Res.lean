/-!
# Outcomes of C code: a value or undefined behaviour

`Res.ub why` is a distinct outcome: as soon as one step of a computation has
undefined behaviour the whole computation has (`bind` propagates it).
-/
namespace Verif

/-- The kinds of undefined behaviour that the model distinguishes.  (No code
lines: this is the vocabulary of the model.)  `hang` is a loop that never ends. -/
inductive UB
  | oobRead | oobWrite | nullDeref | doubleFree | useAfterFree | badCast
  | stringNull | callNull | uninit | hang
  deriving DecidableEq, Repr

/-- Outcome of running a piece of C code. -/
inductive Res (α : Type) : Type
  | ok (a : α) : Res α
  | ub (why : UB) : Res α
  deriving DecidableEq, Repr

namespace Res

variable {α β : Type}

/-- Sequencing: undefined behaviour is final. -/
def bind (x : Res α) (f : α → Res β) : Res β :=
  match x with
  | ok a => f a
  | ub w => ub w

instance : Monad Res where
  pure := ok
  bind := bind

@[simp] theorem pure_eq (a : α) : (pure a : Res α) = ok a := rfl
@[simp] theorem ok_bind (a : α) (f : α → Res β) : (ok a >>= f) = f a := rfl
@[simp] theorem ub_bind (w : UB) (f : α → Res β) : ((ub w : Res α) >>= f) = ub w := rfl
@[simp] theorem bind_ok (x : Res α) : (x >>= ok) = x := by cases x <;> rfl

/-- The run has no undefined behaviour. -/
def Safe (x : Res α) : Prop := ∃ a, x = ok a

@[simp] theorem safe_ok (a : α) : (ok a).Safe := ⟨a, rfl⟩
@[simp] theorem not_safe_ub (w : UB) : ¬ (ub w : Res α).Safe := by rintro ⟨a, h⟩; cases h

theorem bind_eq_ok {x : Res α} {f : α → Res β} {b : β} :
    (x >>= f) = ok b ↔ ∃ a, x = ok a ∧ f a = ok b := by
  cases x <;> simp

theorem bind_safe {x : Res α} {f : α → Res β} :
    (x >>= f).Safe ↔ ∃ a, x = ok a ∧ (f a).Safe := by
  cases x <;> simp

theorem bind_assoc {γ : Type} (x : Res α) (f : α → Res β) (g : β → Res γ) :
    (x >>= f) >>= g = x >>= fun a => f a >>= g := by
  cases x <;> rfl

/-- Boolean test of the outcome (for concrete examples). -/
def test (x : Res α) (p : α → Bool) : Bool :=
  match x with
  | ok a => p a
  | ub _ => false

theorem of_test {x : Res α} {p : α → Bool} (h : x.test p = true) : ∃ a, x = ok a ∧ p a = true := by
  cases x with
  | ok a => exact ⟨a, rfl, h⟩
  | ub w => cases h

/-- Boolean test for undefined behaviour of a given kind. -/
def isUB (x : Res α) (w : UB) : Bool :=
  match x with
  | ok _ => false
  | ub v => decide (v = w)

theorem of_isUB {x : Res α} {w : UB} (h : x.isUB w = true) : x = ub w := by
  cases x with
  | ok a => cases h
  | ub v => simp only [isUB, decide_eq_true_eq] at h; rw [h]

end Res

variable {α : Type}

/-- `a[i]` for an allocated array: reading past the allocation is undefined. -/
def rd (l : List α) (i : Nat) : Res α :=
  match l[i]? with
  | some a => .ok a
  | none => .ub .oobRead

/-- `p[i]` where `p` may be `NULL`. -/
def rdP (p : Option (List α)) (i : Nat) : Res α :=
  match p with
  | some l => rd l i
  | none => .ub .nullDeref

/-- `a[i] = v`. -/
def wr (l : List α) (i : Nat) (v : α) : Res (List α) :=
  if i < l.length then .ok (l.set i v) else .ub .oobWrite

/-- A callee that reads exactly `p[0 .. n-1]` (array functions of libtmpl that
get a pointer and a length). -/
def rdN (p : Option (List α)) (n : Nat) : Res (List α) :=
  match p with
  | none => .ub .nullDeref
  | some l => if n ≤ l.length then .ok (l.take n) else .ub .oobRead

theorem rd_eq_ok {l : List α} {i : Nat} {a : α} : rd l i = .ok a ↔ l[i]? = some a := by
  unfold rd; cases h : l[i]? <;> simp

theorem rd_lt {l : List α} {i : Nat} (h : i < l.length) : rd l i = .ok l[i] := by
  unfold rd; simp [h]

theorem rd_ge {l : List α} {i : Nat} (h : l.length ≤ i) : rd l i = .ub .oobRead := by
  unfold rd; simp [h]

@[simp] theorem rdP_some (l : List α) (i : Nat) : rdP (some l) i = rd l i := rfl
@[simp] theorem rdP_none (i : Nat) : rdP (none : Option (List α)) i = .ub .nullDeref := rfl

theorem wr_lt {l : List α} {i : Nat} {v : α} (h : i < l.length) : wr l i v = .ok (l.set i v) := by
  simp [wr, h]

theorem rdN_some_le {l : List α} {n : Nat} (h : n ≤ l.length) :
    rdN (some l) n = .ok (l.take n) := by simp [rdN, h]

/-- Reads `p[start], ..., p[start+len-1]` one after the other
(`for (n = 0; n < len; ++n) temp[n] = p[start + n];`). -/
def rdSlice (p : Option (List α)) (start : Nat) : Nat → Res (List α)
  | 0 => .ok []
  | len + 1 => do
    let x ← rdP p start
    let xs ← rdSlice p (start + 1) len
    .ok (x :: xs)

/-- Index computation `a - b` in `size_t` whose result is used to index an
array: if it wraps around, the index is within 2^64 - b .. 2^64 - 1 and the
access is out of bounds of every array. -/
def subIdx (a b : Nat) : Res Nat := if b ≤ a then .ok (a - b) else .ub .oobRead

/-- C loop `for (i = lo; i < lo + cnt; ++i) s = body i s`. -/
def forRange {σ : Type} (lo cnt : Nat) (body : Nat → σ → Res σ) (s : σ) : Res σ :=
  match cnt with
  | 0 => .ok s
  | cnt + 1 => do
    let s' ← body lo s
    forRange (lo + 1) cnt body s'

end Verif
