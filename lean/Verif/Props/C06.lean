import Verif.Props.C04
import Verif.Proofs.Window
import Verif.Model.Api

/-!
# C06: default settings
-/
namespace Verif
open Spec

/-- Environment of the examples. -/
def exampleEnv : Env :=
  { mem := true, re := fun _ => true, junk := fun _ => ⟨.nan, .nan⟩, chunks := fun n => [(0, n)] }

/-- **C06** is false: the tau object of a good DLP with default settings is
rejected by `Reconstruction` with the message "requested range GREATER/LESS than
available data" (line 63 of get_window_width). -/
theorem C06_default_range_false :
    ¬ ∀ (d : DLP) (res : Dbl) (t t' : TauD), WellFormed d →
      createFromDLP exactLib exampleAlloc exactNum (some d) res = .ok (some t) → t.err = none →
      reconstruction exactNum exactLib (runXf exactNum) ⟨id, id⟩ exampleEnv t = .ok t' →
      t'.err ≠ some ⟨.getWindowWidth, 63⟩ := by
  intro h
  obtain ⟨t, e, he⟩ := exampleDLP_created
  obtain ⟨o, e', h'⟩ := Res.of_test (x := do
    match ← createFromDLP exactLib exampleAlloc exactNum (some exampleDLP) (.fin 2) with
    | none => .ub .nullDeref
    | some t => reconstruction exactNum exactLib (runXf exactNum) ⟨id, id⟩ exampleEnv t)
    (p := fun t => t.err == some ⟨.getWindowWidth, 63⟩) (by decide +kernel)
  rw [e] at e'
  exact h exampleDLP (.fin 2) t o exampleDLP_wf e he e' (by simpa using h')

/-- **C06**, the part about the stored values: a new object has the documented defaults; the
requested range is the one that `Set_Range_From_String("all")` would store in `range`. -/
theorem C06_defaults_stored (L : Lib) (A : Alloc) (N : Num Dbl Cpx) (d : DLP) (res : Dbl)
    (hw : WellFormed d) :
    ∃ o, createFromDLP L A N (some d) res = .ok o ∧
      ∀ t, o = some t → t.err = none → DefaultSettings t ∧
        ∃ m, setRange (some "all".toList) true t =
          .ok ({ t with range0 := t.req0, range1 := t.req1 }, m) := by
  obtain ⟨o, h, h'⟩ := create_faithful_aux L A N d res hw
  refine ⟨o, h, fun t ht he => ⟨(h' t ht he).2, ?_⟩⟩
  have hc : canon "all".toList = "all".toList := by decide
  have hr := (h' t ht he).2.requested
  refine ⟨[.alloc], ?_⟩
  simp only [setRange, he, Option.isSome_none, Bool.false_eq_true, if_false, Bool.not_true, hc,
    if_true, hr.1, hr.2]

/-- How bad it is: with the default range [0, 0] *no* data set with positive
radii gets past `Get_Window_Width`, whatever its length and contents. -/
theorem C06_default_always_rejected (N : Num Dbl Cpx) (L : Lib) (t : TauD) (rho : List Dbl)
    (h : t.err = none) (hr : HasArr t .rho rho) (hs : t.arrSize ≠ 0) (hp : AllPos rho)
    (h0 : t.range0 = (tauInit L).range0) (h1 : t.range1 = (tauInit L).range1) :
    ∃ u, getWindowWidth N L t = .ok u ∧ u.err = some ⟨.getWindowWidth, 63⟩ := by
  have hlen := hr.2
  have z : 0 < rho.length := by omega
  have zl : t.arrSize - 1 < rho.length := by omega
  have p0 := hp _ (List.getElem_mem z)
  have pl := hp _ (List.getElem_mem zl)
  have a0 : t.range0.le rho[0] = true := by rw [h0]; exact Dbl.le_of_lt p0
  have a1 : (Dbl.fin 0).ge rho[t.arrSize - 1] = false := by
    unfold Dbl.ge
    by_contra hc
    have := Dbl.not_lt_of_le (a := rho[t.arrSize - 1]) (b := .fin 0) (by simpa using hc)
    simp [pl] at this
  have hsub : subIdx t.arrSize 1 = .ok (t.arrSize - 1) := by
    simp [subIdx, Nat.one_le_iff_ne_zero.2 hs]
  refine ⟨Tau.fail { t with range0 := rho[0], start := 0 } .getWindowWidth 63, ?_, rfl⟩
  rw [getWindowWidth_eq N L h]
  have g1 : gwwStart t = .ok (.go { t with range0 := rho[0], start := 0 }) := by
    simp [gwwStart, hr.1, rd_lt z, a0]
  rw [g1, Res.ok_bind]
  have g2 : gwwEnd { t with range0 := rho[0], start := 0 } =
      .ok (.stop (Tau.fail { t with range0 := rho[0], start := 0 } .getWindowWidth 63)) := by
    simp only [gwwEnd, hsub, Res.ok_bind, hr.1, rdP_some, rd_lt zl, rd_lt z, h1, tauInit, a1, p0,
      Bool.false_eq_true, if_false, if_true]
  simp only [g2, Res.ok_bind]

/-- **C06** after the range has been set explicitly to the documented default
("all" = 1 to 400000 km): data with radii in that interval are never rejected for
their range.  Missing: the claim itself, i.e. without calling
`Set_Range_From_String`. -/
theorem C06_default_range_partial (N : Num Dbl Cpx) (L : Lib) (t t' u : TauD) (m : List MemEv)
    (rho : List Dbl) (h : t.err = none) (hset : setRange (some "all".toList) true t = .ok (t', m))
    (hr : HasArr t .rho rho) (hs : t.arrSize ≠ 0) (hin : AllWithin 1 400000 rho)
    (hu : getWindowWidth N L t' = .ok u) :
    u.err ≠ some ⟨.getWindowWidth, 35⟩ ∧ u.err ≠ some ⟨.getWindowWidth, 63⟩ := by
  have hc : canon "all".toList = "all".toList := by decide
  simp only [setRange, h, Option.isSome_none, Bool.false_eq_true, if_false, Bool.not_true, hc,
    if_true, Res.ok.injEq, Prod.mk.injEq] at hset
  obtain ⟨rfl, -⟩ := hset
  have hlen := hr.2
  have z : 0 < rho.length := by omega
  have zl : t.arrSize - 1 < rho.length := by omega
  obtain ⟨q0, e0, l0, u0⟩ := hin _ (List.getElem_mem z)
  obtain ⟨ql, el, ll, ul⟩ := hin _ (List.getElem_mem zl)
  have hsub : subIdx t.arrSize 1 = .ok (t.arrSize - 1) := by
    simp [subIdx, Nat.one_le_iff_ne_zero.2 hs]
  rw [getWindowWidth_eq N L rfl] at hu
  simp [gwwStart, gwwEnd, hr.1, rd_lt z, rd_lt zl, e0, el, hsub, l0, Dbl.ge, ul] at hu
  rcases gwwRest_err N L rfl hu with h' | ⟨l, h', hl⟩
  · simp [h']
  · rw [h']
    constructor
    · rintro hc; cases hc; simp at hl
    · rintro hc; cases hc; simp at hl

/-- The hypotheses hold for the example data. -/
example : HasArr { tauInit exactLib with arr := fun _ => some [.fin 100, .fin 101], arrSize := 2 } .rho
    [.fin 100, .fin 101] ∧ AllPos [.fin 100, .fin 101] ∧ AllWithin 1 400000 [.fin 100, .fin 101] := by
  refine ⟨⟨rfl, rfl⟩, by simp [AllPos], ?_⟩
  intro x hx
  simp at hx
  rcases hx with rfl | rfl
  · exact ⟨100, rfl, by norm_num, by norm_num⟩
  · exact ⟨101, rfl, by norm_num, by norm_num⟩

end Verif
