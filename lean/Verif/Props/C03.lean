import Verif.Proofs.Create
import Verif.Base.Exact

/-!
# C03: creation from a DLP object
-/
namespace Verif
open Spec

theorem create_faithful_aux (L : Lib) (A : Alloc) (N : Num Dbl Cpx) (d : DLP) (res : Dbl)
    (hw : WellFormed d) :
    ∃ o, createFromDLP L A N (some d) res = .ok o ∧
      ∀ t, o = some t → t.err = none → CreatedFrom N d res t ∧ DefaultSettings t := by
  rw [createFromDLP_some]
  split_ifs with h0 h1 h2
  · exact ⟨_, rfl, by simp⟩
  · exact ⟨_, rfl, by rintro t ht he; cases ht; simp at he⟩
  · exact ⟨_, rfl, by rintro t ht he; cases ht; simp at he⟩
  · by_cases hs : 2 ≤ d.arrSize
    swap
    · have hle : d.arrSize ≤ 1 := by omega
      have h1' : d.errorOccurred = false := by simpa using h1
      have e1 : copyDLPData A N (some d) { tauInit L with res := res } =
          .ok (Tau.fail { tauInit L with res := res } .copyDLPData 130) := by
        rw [copyDLPData, guarded_none _ rfl]; simp [h1', hle]
      rw [e1, Res.ok_bind, checkGeometry, guarded_err _ (by simp)]
      exact ⟨_, rfl, by rintro t ht he; cases ht; simp at he⟩
    · obtain ⟨t', e, hc, -, hset⟩ := copyDLPData_spec L A N (res := res) (by simpa using h1) hs hw
      rw [e, Res.ok_bind]
      by_cases ht : t'.err = none
      swap
      · rw [checkGeometry, guarded_err _ ht]
        exact ⟨_, rfl, by rintro t h1 he; cases h1; exact absurd he ht⟩
      · have C := hc ht
        have hsz : t'.arrSize = d.arrSize := C.size
        have hres : ∀ f g, verbatim f = some g → g ≠ .rawTauThreshold →
            ∃ l, rdN (t'.arr f) t'.arrSize = .ok l ∧ (t'.arr f).isNone = false := by
          intro f g hfg hg
          obtain ⟨l, h1, h2⟩ := hw g hg
          refine ⟨l, ?_, by rw [C.copied f g hfg, h1]; rfl⟩
          rw [C.copied f g hfg, h1, hsz, ← h2, rdN_some_le (le_refl _), List.take_length]
        obtain ⟨lphi, p1, p2⟩ := hres .phi .phi rfl (by decide)
        obtain ⟨lB, b1, b2⟩ := hres .B .B rfl (by decide)
        obtain ⟨lD, d1, d2⟩ := hres .D .D rfl (by decide)
        obtain ⟨lr, r1, r2⟩ := hres .rho .rho rfl (by decide)
        have key : ∃ u, checkGeometry L N t' = .ok u ∧ (u = t' ∨ u.err ≠ none) := by
          rw [checkGeometry, guarded_none _ ht]
          have step : ∀ (f : TauD → Res TauD) (x : Res TauD),
              (∃ u, f t' = .ok u ∧ (u = t' ∨ u.err ≠ none)) →
              (∀ u, u.err ≠ none → f u = .ok u) →
              (∃ u, x = .ok u ∧ (u = t' ∨ u.err ≠ none)) →
              ∃ u, (x >>= f) = .ok u ∧ (u = t' ∨ u.err ≠ none) := by
            intro f x h1 h2 h3
            obtain ⟨u, rfl, h⟩ := h3
            rcases h with rfl | h
            · exact h1
            · exact ⟨u, h2 u h, .inr h⟩
          have c1 : ∃ u, checkAzimuth L t' = .ok u ∧ (u = t' ∨ u.err ≠ none) := by
            rw [checkAzimuth, guarded_none _ ht, p1, p2]
            simp only [Bool.false_eq_true, if_false, Res.ok_bind]
            split_ifs <;> exact ⟨_, rfl, by simp⟩
          have c2 : ∃ u, checkDisplacement N t' = .ok u ∧ (u = t' ∨ u.err ≠ none) := by
            rw [checkDisplacement, guarded_none _ ht]
            split_ifs <;> exact ⟨_, rfl, by simp⟩
          have c3 : ∃ u, checkOpening L t' = .ok u ∧ (u = t' ∨ u.err ≠ none) := by
            rw [checkOpening, guarded_none _ ht, b1, b2]
            simp only [Bool.false_eq_true, if_false, Res.ok_bind]
            split_ifs <;> exact ⟨_, rfl, by simp⟩
          have c4 : ∃ u, checkRingDistance L t' = .ok u ∧ (u = t' ∨ u.err ≠ none) := by
            rw [checkRingDistance, guarded_none _ ht, d1, d2]
            simp only [Bool.false_eq_true, if_false, Res.ok_bind]
            split_ifs <;> exact ⟨_, rfl, by simp⟩
          have c5 : ∃ u, checkRingRadius L t' = .ok u ∧ (u = t' ∨ u.err ≠ none) := by
            rw [checkRingRadius, guarded_none _ ht, r1, r2]
            simp only [Bool.false_eq_true, if_false, Res.ok_bind]
            split_ifs <;> exact ⟨_, rfl, by simp⟩
          have s2 := step (checkDisplacement N) _ c2 (fun u hu => guarded_err _ hu) c1
          have s3 := step (checkOpening L) _ c3 (fun u hu => guarded_err _ hu) s2
          have s4 := step (checkRingDistance L) _ c4 (fun u hu => guarded_err _ hu) s3
          have s5 := step (checkRingRadius L) _ c5 (fun u hu => guarded_err _ hu) s4
          simpa only [Res.bind_assoc] using s5
        obtain ⟨u, hu, hor⟩ := key
        rw [hu, Res.ok_bind]
        refine ⟨_, rfl, ?_⟩
        rintro t h1 he
        cases h1
        rcases hor with rfl | h
        · refine ⟨C, ?_⟩
          rw [hset]
          exact ⟨rfl, rfl, rfl, rfl, rfl, by simp [tauInit]; norm_num, rfl, rfl, rfl, rfl, rfl⟩
        · exact absurd he h

/-- **C03**: on a well-formed DLP (or NULL) of any size and content, with any
outcome of `malloc` and any resolution, creation is defined; and an object that
is returned without an error is `CreatedFrom` the DLP. -/
theorem C03_create_faithful (L : Lib) (A : Alloc) (N : Num Dbl Cpx) (d : DLP) (res : Dbl)
    (hw : WellFormed d) :
    ∃ o, createFromDLP L A N (some d) res = .ok o ∧
      ∀ t, o = some t → t.err = none → CreatedFrom N d res t := by
  obtain ⟨o, h, h'⟩ := create_faithful_aux L A N d res hw
  exact ⟨o, h, fun t ht he => (h' t ht he).1⟩

/-- **C03**, the reasons for a failure: with a working `malloc`, a resolution
that is positive (or NaN!) and at least two rows, the only possible error is one
of the geometry checks. -/
theorem C03_create_total (L : Lib) (A : Alloc) (N : Num Dbl Cpx) (d : DLP) (res : Dbl)
    (hw : WellFormed d) (hA : ∀ i, A.ok i = true) (hd : d.errorOccurred = false)
    (hs : 2 ≤ d.arrSize) (hr : res.le (.fin 0) = false) :
    ∃ t', CreatedFrom N d res t' ∧ t'.err = none ∧
      createFromDLP L A N (some d) res = (do let t ← checkGeometry L N t'; .ok (some t)) := by
  obtain ⟨t', e, hc, hn, -⟩ := copyDLPData_spec L A N (res := res) hd hs hw
  refine ⟨t', hc (hn hA), hn hA, ?_⟩
  rw [createFromDLP_some, e]; simp [hA, hd, hr]

/-- A DLP object with three rows of plausible values. -/
def exampleDLP : DLP where
  arr := fun f => match f with
    | .rho => some [.fin 100, .fin 101, .fin 102]
    | .rawTauThreshold => none
    | _ => some [.fin 3, .fin 4, .fin 5]
  arrSize := 3
  errorOccurred := false

/-- Malloc always works. -/
def exampleAlloc : Alloc := ⟨fun _ => true, fun _ => [], fun _ => []⟩

theorem exampleDLP_wf : WellFormed exampleDLP := by
  intro f hf
  cases f <;> first | exact absurd rfl hf | exact ⟨_, rfl, rfl⟩

example : WellFormed exampleDLP ∧ (∀ i, exampleAlloc.ok i = true) ∧
    exampleDLP.errorOccurred = false ∧ 2 ≤ exampleDLP.arrSize ∧ (Dbl.fin 2).le (.fin 0) = false :=
  ⟨exampleDLP_wf, fun _ => rfl, rfl, by decide, by decide⟩

/-- The example is created without an error. -/
theorem exampleDLP_created : ∃ t, createFromDLP exactLib exampleAlloc exactNum (some exampleDLP)
    (.fin 2) = .ok (some t) ∧ t.err = none := by
  obtain ⟨o, e, h⟩ := Res.of_test (x := createFromDLP exactLib exampleAlloc exactNum
    (some exampleDLP) (.fin 2)) (p := fun o => o.any (·.err == none)) (by decide +kernel)
  cases o with
  | none => cases h
  | some t => exact ⟨t, e, by simpa using h⟩

end Verif
