import Verif.Proofs.OccType
import Verif.Props.C03

/-!
# C07, C08: orientation of the profile
-/
namespace Verif
open Spec

/-- The per-sample arrays have full length. -/
def FullLength (fs : List Fld) (t : TauD) : Prop :=
  ∀ f ∈ fs, ∃ l, t.arr f = some l ∧ l.length = t.arrSize

/-- **C07**, acceptance: exactly one consistent event of at least two samples
passes; afterwards the spacing and all velocities are positive with the original
magnitudes, and the radii are the original ones, reversed iff the spacing was
negative. -/
theorem C07_accept (L : Lib) (hL : L.Lawful) (t : TauD) (h : t.err = none)
    (ha : FullLength reversedFields t) (v rho : List Dbl) (hv : t.arr .rhoDot = some v)
    (hr : t.arr .rho = some rho) (hn : NaNFree v) (hdx : t.dx.isNaN = false)
    (hs : 1 < t.arrSize) (ho : OneEvent t.dx v) :
    ∃ u rev v', checkOccType L t = .ok u ∧ u.err = none ∧
      (rev = true ↔ t.dx.lt (.fin 0) = true) ∧
      (Dbl.fin 0).lt u.dx = true ∧ AbsOf t.dx u.dx ∧
      u.arr .rho = some (rows rev rho) ∧
      u.arr .rhoDot = some v' ∧ List.Forall₂ AbsOf (rows rev v) v' ∧
      ∀ y ∈ v', (Dbl.fin 0).lt y = true := by
  rcases checkOccType_cases hL h ha hv hn hdx with ⟨-, -, e⟩ | ⟨c, -⟩
  swap; · exact absurd ⟨hs, ho⟩ c
  have hsg : ∀ x ∈ v, (Dbl.fin 0).lt x = true ∨ x.lt (.fin 0) = true := by
    intro x hx
    rcases ho with ⟨-, c | c⟩ | ⟨-, c⟩
    · exact .inl (c x hx)
    · exact .inr (c x hx)
    · exact .inr (c x hx)
  have hd : AbsOf t.dx t.dx.abs := absOf_abs (by
    rcases ho with ⟨c, -⟩ | ⟨c, -⟩
    · exact .inl c
    · exact .inr c)
  have hf : ∀ l : List Dbl, (∀ x ∈ l, x ∈ v) → List.Forall₂ AbsOf l (l.map Dbl.abs) := by
    intro l hl
    induction l with
    | nil => exact .nil
    | cons a l ih =>
      exact .cons (absOf_abs (hsg a (hl a (by simp)))) (ih fun x hx => hl x (by simp [hx]))
  have hmem : ∀ x ∈ rows (t.dx.lt (.fin 0)) v, x ∈ v := by
    intro x hx
    unfold rows at hx
    split at hx <;> simpa using hx
  refine ⟨_, t.dx.lt (.fin 0), (rows (t.dx.lt (.fin 0)) v).map Dbl.abs, e, h, Iff.rfl,
    hd.pos_right, hd, ?_, ?_, hf _ hmem, ?_⟩
  · simp [oriented, hr, reversedFields]
  · simp [oriented, hv]
  · intro y hy
    obtain ⟨x, hx, rfl⟩ := List.mem_map.1 hy
    exact (absOf_abs (hsg x (hmem x hx))).pos_right

/-- **C07**, rejection: everything else (mixed or zero velocities, decreasing
radius with positive velocity, less than two samples, zero spacing) is an error
and changes nothing. -/
theorem C07_reject (L : Lib) (hL : L.Lawful) (t : TauD) (h : t.err = none)
    (ha : FullLength reversedFields t) (v : List Dbl) (hv : t.arr .rhoDot = some v)
    (hn : NaNFree v) (hdx : t.dx.isNaN = false)
    (hbad : ¬ (1 < t.arrSize ∧ OneEvent t.dx v)) :
    ∃ l, checkOccType L t = .ok (t.fail .checkOccType l) := by
  rcases checkOccType_cases hL h ha hv hn hdx with ⟨c1, c2, -⟩ | ⟨-, l, e⟩
  · exact absurd ⟨c1, c2⟩ hbad
  · exact ⟨l, e⟩

/-- The hypothesis on the spacing is needed: a NaN spacing is accepted without
any change, whatever the sign of the velocities. -/
theorem C07_nan_spacing (L : Lib) (hL : L.Lawful) (t : TauD) (h : t.err = none) (hs : 1 < t.arrSize)
    (v : List Dbl) (hv : t.arr .rhoDot = some v) (hl : v.length = t.arrSize) (hn : NaNFree v)
    (hi : Ingress v) (hdx : t.dx = .nan) : checkOccType L t = .ok t := by
  have hne : v ≠ [] := by rintro rfl; simp at hl; omega
  have h1 := hi _ (hL.min_mem v hne hn)
  have h2 := hi _ (hL.max_mem v hne hn)
  have e1 : ∀ x : Dbl, x.lt (.fin 0) = true → x.eq (.fin 0) = false ∧ (Dbl.fin 0).lt x = false := by
    intro x
    cases x <;> simp [Dbl.lt, Dbl.eq]
    intro hq
    exact ⟨hq.ne, hq.le⟩
  have e2 : ∀ x : Dbl, Dbl.eq .nan x = false := by intro x; cases x <;> rfl
  rw [checkOccType, guarded_none _ h]
  simp only [hv, hdx, show ¬ t.arrSize ≤ 1 by omega, e2,
    show rdN (some v) t.arrSize = .ok v by
      rw [rdN_some_le (by omega), ← hl, List.take_length],
    Dbl.gt, e1 _ h1, e1 _ h2, Res.ok_bind, Option.isNone_some, Bool.false_eq_true, if_false,
    Bool.and_false, Bool.or_false, Dbl.lt_nan_left, Dbl.lt_nan_right, Bool.false_and]

/-! ### C08 -/

/-- The claim of C08 for one run: one order of rows for all per-sample arrays,
velocities up to sign. -/
def Aligned (t u : TauD) : Prop :=
  ∃ rev, (∀ f l, f ≠ .rhoDot → t.arr f = some l → u.arr f = some (rows rev l)) ∧
    (∀ l, t.arr .rhoDot = some l → ∃ m, u.arr .rhoDot = some m ∧ List.Forall₂ AbsOf (rows rev l) m) ∧
    (∀ f l, t.carr f = some l → u.carr f = some (rows rev l))

/-- **C08** as far as it holds: rows stay together among the 14 arrays that are
reversed, and everything stays together if the radius already increases.
Missing: `T_in`, `k` and `F` of decreasing data (see the next theorem). -/
theorem C08_aligned_partial (L : Lib) (hL : L.Lawful) (t u : TauD) (h : t.err = none)
    (ha : FullLength reversedFields t) (v : List Dbl) (hv : t.arr .rhoDot = some v)
    (hn : NaNFree v) (hdx : t.dx.isNaN = false) (e : checkOccType L t = .ok u) (hu : u.err = none) :
    (∃ rev, (∀ f ∈ reversedFields, ∀ l, f ≠ .rhoDot → t.arr f = some l →
        u.arr f = some (rows rev l)) ∧
      (∃ m, u.arr .rhoDot = some m ∧ List.Forall₂ AbsOf (rows rev v) m)) ∧
    ((Dbl.fin 0).lt t.dx = true → Aligned t u) := by
  rcases checkOccType_cases hL h ha hv hn hdx with ⟨c1, c2, e'⟩ | ⟨-, l, e'⟩
  swap; · rw [e'] at e; cases e; simp at hu
  obtain ⟨rho, hr, -⟩ := ha .rho (by decide)
  obtain ⟨u', rev, v', e2, -, hrev, -, -, -, hv', hf, -⟩ :=
    C07_accept L hL t h ha v rho hv hr hn hdx c1 c2
  rw [e] at e2; cases e2
  rw [e] at e'; cases e'
  have hrev' : t.dx.lt (.fin 0) = rev := by
    cases rev <;> cases hh : t.dx.lt (.fin 0) <;> simp_all
  rw [hrev'] at hv' ⊢
  refine ⟨⟨rev, ?_, v', hv', hf⟩, fun hp => ⟨rev, ?_, ?_, ?_⟩⟩
  · intro f hf l hne hl
    simp [oriented, hne, hf, hl]
  · intro f l hne hl
    have : rev = false := by
      have : t.dx.lt (.fin 0) = false := by
        revert hp; cases t.dx <;> simp [Dbl.lt]; intro a; exact a.le
      rw [← hrev', this]
    subst this
    simp [oriented, hne, hl, rows]
  · intro l hl
    rw [hv] at hl; cases hl
    exact ⟨v', hv', hf⟩
  · intro f l hl
    have : rev = false := by
      have : t.dx.lt (.fin 0) = false := by
        revert hp; cases t.dx <;> simp [Dbl.lt]; intro a; exact a.le
      rw [← hrev', this]
    subst this
    simpa [oriented, rows] using hl

/-- What happens to the remaining arrays of decreasing data: the complex
amplitudes, the wavenumbers and the Fresnel scales keep their old order while
the radii are reversed. -/
theorem C08_left_behind (L : Lib) (hL : L.Lawful) (t u : TauD) (h : t.err = none)
    (ha : FullLength reversedFields t) (v rho : List Dbl) (hv : t.arr .rhoDot = some v)
    (hr : t.arr .rho = some rho)
    (hn : NaNFree v) (hdx : t.dx.lt (.fin 0) = true) (e : checkOccType L t = .ok u)
    (hu : u.err = none) :
    u.arr .rho = some rho.reverse ∧ u.arr .F = t.arr .F ∧ u.arr .k = t.arr .k ∧ u.carr = t.carr := by
  have hnan : t.dx.isNaN = false := by revert hdx; cases t.dx <;> simp [Dbl.lt, Dbl.isNaN]
  rcases checkOccType_cases hL h ha hv hn hnan with ⟨c1, c2, e'⟩ | ⟨-, l, e'⟩
  swap; · rw [e'] at e; cases e; simp at hu
  rw [e] at e'; cases e'
  refine ⟨?_, ?_, ?_, rfl⟩ <;> simp [oriented, reversedFields, hr, hdx, rows]

/-- Two samples of an ingress profile. -/
def ingressTau : TauD :=
  { tauInit exactLib with
    arrSize := 2
    dx := .fin (-1)
    arr := fun f => match f with
      | .rho => some [.fin 2, .fin 1]
      | .rhoDot => some [.fin (-1), .fin (-2)]
      | _ => some [.fin 3, .fin 4]
    carr := fun _ => some [⟨.fin 5, .fin 0⟩, ⟨.fin 6, .fin 0⟩] }

theorem ingressTau_full : FullLength reversedFields ingressTau := by
  intro f hf
  cases f <;> exact ⟨_, rfl, rfl⟩

/-- **C08** is false: there is a profile with decreasing radius that is accepted
but whose amplitudes do not follow the radii. -/
theorem C08_aligned_false :
    ¬ ∀ (t u : TauD), t.err = none → FullLength reversedFields t →
      checkOccType exactLib t = .ok u → u.err = none → Aligned t u := by
  intro hall
  have hn : NaNFree [Dbl.fin (-1), .fin (-2)] := by simp [NaNFree, Dbl.isNaN]
  have ho : OneEvent ingressTau.dx [Dbl.fin (-1), .fin (-2)] := by
    refine .inr ⟨by decide +kernel, ?_⟩
    intro x hx
    simp at hx
    rcases hx with rfl | rfl <;> decide +kernel
  obtain ⟨u, rev, v', e, hu, -⟩ := C07_accept exactLib exactLib_lawful ingressTau rfl
    ingressTau_full _ [.fin 2, .fin 1] rfl rfl hn rfl (by decide) ho
  obtain ⟨h1, -, -, h4⟩ := C08_left_behind exactLib exactLib_lawful ingressTau u rfl
    ingressTau_full _ [.fin 2, .fin 1] rfl rfl hn (by decide +kernel) e hu
  obtain ⟨r, a, -, c⟩ := hall _ u rfl ingressTau_full e hu
  have a' := a .rho [.fin 2, .fin 1] (by decide) rfl
  have c' := c .tIn _ rfl
  rw [h1] at a'
  rw [h4] at c'
  cases r <;> simp [rows, ingressTau] at a' c'

/-- The hypotheses of C07 and C08 are met by this profile. -/
example : FullLength reversedFields ingressTau ∧ 1 < ingressTau.arrSize ∧
    OneEvent ingressTau.dx [Dbl.fin (-1), .fin (-2)] ∧
    ingressTau.arr .rhoDot = some [Dbl.fin (-1), .fin (-2)] := by
  refine ⟨ingressTau_full, by decide, .inr ⟨by decide +kernel, ?_⟩, rfl⟩
  intro x hx
  simp at hx
  rcases hx with rfl | rfl <;> decide +kernel

/-- A rejected profile: decreasing radius, positive velocities. -/
example : ¬ OneEvent (.fin (-1)) [Dbl.fin 1, .fin 1] := by
  rintro (⟨h, -⟩ | ⟨-, h⟩)
  · revert h; decide +kernel
  · have := h (.fin 1) (by simp); revert this; decide +kernel

end Verif
