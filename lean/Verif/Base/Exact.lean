import Verif.Model.Checks

/-!
# A concrete arithmetic for examples

`exactNum` computes with rational numbers without rounding and replaces the
libtmpl functions by simple stand-ins; it is used for examples and for the
witnesses of negative results only.  `exactLib` has the real min/max functions.
No code lines: this is not a model of code.
-/
namespace Verif

namespace Dbl
/-- Exact binary operation on finite numbers, NaN otherwise. -/
def op (f : ℚ → ℚ → ℚ) : Dbl → Dbl → Dbl
  | fin a, fin b => fin (f a b)
  | _, _ => nan

/-- Exact division; x/0 is an infinity or NaN. -/
def divE : Dbl → Dbl → Dbl
  | fin a, fin b => if b = 0 then (if 0 < a then pinf else if a < 0 then ninf else nan) else fin (a / b)
  | _, _ => nan

/-- Minimum of a list (the first entry for which nothing smaller follows). -/
def listMin : List Dbl → Dbl
  | [] => nan
  | [x] => x
  | x :: y :: xs => if x.lt (listMin (y :: xs)) then x else listMin (y :: xs)

/-- Maximum of a list. -/
def listMax : List Dbl → Dbl
  | [] => nan
  | [x] => x
  | x :: y :: xs => if (listMax (y :: xs)).lt x then x else listMax (y :: xs)

theorem listMin_mem : ∀ l : List Dbl, l ≠ [] → listMin l ∈ l
  | [], h => absurd rfl h
  | [x], _ => by simp [listMin]
  | x :: y :: xs, _ => by
    have := listMin_mem (y :: xs) (by simp)
    unfold listMin
    split
    · simp
    · exact List.mem_cons_of_mem _ this

theorem listMax_mem : ∀ l : List Dbl, l ≠ [] → listMax l ∈ l
  | [], h => absurd rfl h
  | [x], _ => by simp [listMax]
  | x :: y :: xs, _ => by
    have := listMax_mem (y :: xs) (by simp)
    unfold listMax
    split
    · simp
    · exact List.mem_cons_of_mem _ this

theorem le_refl {x : Dbl} (h : x.isNaN = false) : x.le x = true := by
  cases x <;> simp_all [le, lt, eq, isNaN]

theorem listMin_le : ∀ l : List Dbl, NaNFree l → ∀ x ∈ l, (listMin l).le x = true
  | [], _ => by simp
  | [x], h => by
    intro y hy
    simp at hy
    subst hy
    exact le_refl (h y (by simp))
  | x :: y :: xs, h => by
    have hn : NaNFree (y :: xs) := fun z hz => h z (List.mem_cons_of_mem _ hz)
    have ih := listMin_le (y :: xs) hn
    have hx := h x (by simp)
    have hm := hn _ (listMin_mem (y :: xs) (by simp))
    intro z hz
    unfold listMin
    split
    · rename_i hlt
      rcases List.mem_cons.1 hz with rfl | hz
      · exact le_refl hx
      · exact le_of_lt (lt_of_lt_of_le hlt (ih z hz))
    · rename_i hlt
      rcases List.mem_cons.1 hz with rfl | hz
      · exact le_of_not_lt hx hm (by simpa using hlt)
      · exact ih z hz

theorem le_listMax : ∀ l : List Dbl, NaNFree l → ∀ x ∈ l, x.le (listMax l) = true
  | [], _ => by simp
  | [x], h => by
    intro y hy
    simp at hy
    subst hy
    exact le_refl (h y (by simp))
  | x :: y :: xs, h => by
    have hn : NaNFree (y :: xs) := fun z hz => h z (List.mem_cons_of_mem _ hz)
    have ih := le_listMax (y :: xs) hn
    have hx := h x (by simp)
    have hm := hn _ (listMax_mem (y :: xs) (by simp))
    intro z hz
    unfold listMax
    split
    · rename_i hlt
      rcases List.mem_cons.1 hz with rfl | hz
      · exact le_refl hx
      · exact le_of_lt (lt_of_le_of_lt (ih z hz) hlt)
    · rename_i hlt
      rcases List.mem_cons.1 hz with rfl | hz
      · exact le_of_not_lt hm hx (by simpa using hlt)
      · exact ih z hz

end Dbl

/-- Exact complex product. -/
def Cpx.mul (a b : Cpx) : Cpx :=
  ⟨Dbl.op (· - ·) (Dbl.op (· * ·) a.re b.re) (Dbl.op (· * ·) a.im b.im),
   Dbl.op (· + ·) (Dbl.op (· * ·) a.re b.im) (Dbl.op (· * ·) a.im b.re)⟩

/-- Exact rational arithmetic; the libtmpl functions are simple stand-ins
(all angles have cosine 1, all windows are 1, all kernels are 1, ...). -/
def exactNum : Num Dbl Cpx where
  lit := Dbl.fin
  add := Dbl.op (· + ·)
  sub := Dbl.op (· - ·)
  mul := Dbl.op (· * ·)
  div := Dbl.divE
  neg := Dbl.neg
  abs := Dbl.abs
  sqrt := id
  rect := Cpx.mk
  polar := fun r _ => ⟨r, .fin 0⟩
  polard := fun r _ => ⟨r, .fin 0⟩
  cadd := fun a b => ⟨Dbl.op (· + ·) a.re b.re, Dbl.op (· + ·) a.im b.im⟩
  csub := fun a b => ⟨Dbl.op (· - ·) a.re b.re, Dbl.op (· - ·) a.im b.im⟩
  cmul := Cpx.mul
  crmul := fun r a => ⟨Dbl.op (· * ·) r a.re, Dbl.op (· * ·) r a.im⟩
  conj := fun a => ⟨a.re, a.im.neg⟩
  cabs := fun a => a.re.abs
  freqToWavelength := fun f => Dbl.divE (.fin 1) f
  wavelengthToWavenumber := fun l => Dbl.divE (.fin 1) l
  cylFresnelScaleDeg := fun l _ _ _ => l
  resolutionInverse := fun p => Dbl.op (· - ·) p (.fin 1)
  winFn := fun _ _ _ => .fin 1
  piByTwo := .fin (3/2)
  rcprSqrtTwo := .fin (7/10)
  sqrtTwo := .fin (14/10)
  cos := fun _ => .fin 1
  cosd := fun _ => .fin 1
  sind := fun _ => .fin 0
  re := Cpx.re
  im := Cpx.im
  caddr := fun a r => ⟨Dbl.op (· + ·) a.re r, a.im⟩
  cmid := fun a _ => a
  statKernel := fun _ _ => ⟨.fin 1, .fin 0⟩
  statPhaseWeight := fun _ g => (.fin 1, .fin 0, g.phi0)
  statPsi := fun _ _ => .fin 0
  ellPhi := fun _ _ _ _ _ _ _ _ _ _ _ => .fin 0
  obsDist := fun _ _ _ _ _ => .fin 1
  idealPsiDeg := fun _ _ _ _ _ _ _ => .fin 0
  idealPhiDeg := fun _ _ _ _ _ _ _ => .fin 0
  cFilon01 := fun a _ _ _ => a
  rFilon01 := fun a _ _ _ => ⟨a, .fin 0⟩
  cFilon11 := fun a _ _ _ _ => a
  rFilon11 := fun a _ _ _ _ => ⟨a, .fin 0⟩
  cFilon02 := fun a _ _ _ _ _ => a
  cFilon12 := fun a _ _ _ _ _ _ => a
  legendreL := fun _ _ _ _ => .fin 0

/-- Library with the intended min/max functions and plausible constants. -/
def exactLib : Lib where
  arrMin := Dbl.listMin
  arrMax := Dbl.listMax
  twoPi := 6283185307179586 / 1000000000000000
  normEq := fun _ => .fin 2
  speedOfLight := .fin 299792

theorem exactLib_lawful : exactLib.Lawful where
  min_mem := fun l h _ => Dbl.listMin_mem l h
  min_le := Dbl.listMin_le
  max_mem := fun l h _ => Dbl.listMax_mem l h
  le_max := Dbl.le_listMax

/-- Arithmetic without rounding on finite values (only the four operations and
literals are constrained). -/
structure Num.ExactOps (N : Num Dbl Cpx) : Prop where
  lit : ∀ q, N.lit q = .fin q
  add : ∀ a b, N.add (.fin a) (.fin b) = .fin (a + b)
  sub : ∀ a b, N.sub (.fin a) (.fin b) = .fin (a - b)
  mul : ∀ a b, N.mul (.fin a) (.fin b) = .fin (a * b)
  div : ∀ a b, b ≠ 0 → N.div (.fin a) (.fin b) = .fin (a / b)

theorem exactNum_exact : exactNum.ExactOps where
  lit := fun _ => rfl
  add := fun _ _ => rfl
  sub := fun _ _ => rfl
  mul := fun _ _ => rfl
  div := fun a b h => by simp [exactNum, Dbl.divE, h]

end Verif
