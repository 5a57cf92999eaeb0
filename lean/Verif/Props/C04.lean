import Verif.Props.C03

/-!
# C04: geometry validation
-/
namespace Verif
open Spec

/-- A tau object with full, NaN-free geometry arrays and no error. -/
structure GoodShape (t : TauD) (phi B D rho : List Dbl) : Prop where
  err : t.err = none
  hphi : HasArr t .phi phi
  hB : HasArr t .B B
  hD : HasArr t .D D
  hrho : HasArr t .rho rho
  size : t.arrSize ≠ 0
  nan : NaNFree phi ∧ NaNFree B ∧ NaNFree D ∧ NaNFree rho

/-- **C04** (needs a resolution that is not NaN, see `C04_geometry_false`):
`Check_Geometry` returns, leaves everything but the error flag alone, and leaves
the error flag clear if and only if the geometry is legal. `prod q` is `1.99 * q`
in the arithmetic in use, about which only `prod q ≠ NaN` is assumed. -/
theorem C04_geometry_partial (L : Lib) (hL : L.Lawful) (N : Num Dbl Cpx)
    (hN : ∀ q : ℚ, (N.mul (N.lit (199 / 100)) (.fin q)).isNaN = false) (t : TauD)
    (phi B D rho : List Dbl) (h : GoodShape t phi B D rho) (hr : t.res.isNaN = false) :
    ∃ t', checkGeometry L N t = .ok t' ∧ { t' with err := t.err } = t ∧
      (t'.err = none ↔
        LegalGeometry (fun q => N.mul (N.lit (199 / 100)) (.fin q)) phi B D rho t.dx t.res) := by
  rcases checkGeometry_cases hL N h.err h.hphi h.hB h.hD h.hrho h.size h.nan.1 h.nan.2.1 h.nan.2.2.1
    h.nan.2.2.2 hN hr with ⟨g, e⟩ | ⟨g, f, l, e⟩
  · exact ⟨t, e, rfl, by simp [h.err, g]⟩
  · exact ⟨_, e, rfl, by simp [g]⟩

/-- With exact arithmetic the spacing condition reads `1.99 |dx| ≤ resolution`. -/
theorem C04_spacing_exact (q r : ℚ) :
    Dbl.le (exactNum.mul (exactNum.lit (199 / 100)) (.fin |q|)) (.fin r) = true ↔
      199 / 100 * |q| ≤ r := by
  simp [exactNum, Dbl.op]

/-- A tau object with two rows: legal except that the resolution is NaN. -/
def nanResTau : TauD :=
  { tauInit exactLib with
    arr := fun _ => some [.fin 10, .fin 11], arrSize := 2, dx := .fin 1, res := .nan }

/-- **C04** without the assumption on the resolution is false: a NaN resolution
is accepted. -/
theorem C04_geometry_false :
    ¬ ∀ (t : TauD) (phi B D rho : List Dbl), GoodShape t phi B D rho →
      ∀ t', checkGeometry exactLib exactNum t = .ok t' → t'.err = none →
        LegalGeometry (fun q => exactNum.mul (exactNum.lit (199 / 100)) (.fin q))
          phi B D rho t.dx t.res := by
  intro h
  have nf : NaNFree [.fin 10, .fin 11] := by simp [NaNFree]
  obtain ⟨t', e, he⟩ := Res.of_test (x := checkGeometry exactLib exactNum nanResTau)
    (p := fun t => t.err == none) (by decide +kernel)
  have := h nanResTau [.fin 10, .fin 11] [.fin 10, .fin 11] [.fin 10, .fin 11] [.fin 10, .fin 11]
    ⟨rfl, ⟨rfl, rfl⟩, ⟨rfl, rfl⟩, ⟨rfl, rfl⟩, ⟨rfl, rfl⟩, by decide, nf, nf, nf, nf⟩ t' e
    (by simpa using he)
  obtain ⟨q, -, -, hle⟩ := this.spacing
  simp [nanResTau] at hle

/-- **C04**, creation: an object handed out without error by `Create_From_DLP`
has a legal geometry, for NaN-free geometry columns and a resolution that is
not NaN. -/
theorem C04_create_partial (L : Lib) (hL : L.Lawful) (A : Alloc) (N : Num Dbl Cpx)
    (hN : ∀ q : ℚ, (N.mul (N.lit (199 / 100)) (.fin q)).isNaN = false)
    (d : DLP) (res : Dbl) (hw : WellFormed d) (phi B D rho : List Dbl)
    (h1 : d.arr .phi = some phi) (h2 : d.arr .B = some B) (h3 : d.arr .D = some D)
    (h4 : d.arr .rho = some rho) (n1 : NaNFree phi) (n2 : NaNFree B) (n3 : NaNFree D)
    (n4 : NaNFree rho) (hr : res.isNaN = false) (t : TauD)
    (e : createFromDLP L A N (some d) res = .ok (some t)) (he : t.err = none) :
    LegalGeometry (fun q => N.mul (N.lit (199 / 100)) (.fin q)) phi B D rho t.dx t.res := by
  rw [createFromDLP_some] at e
  split_ifs at e with a1 a2 a3
  · cases e
  · cases e; simp at he
  · cases e; simp at he
  · by_cases hs : 2 ≤ d.arrSize
    swap
    · have hle : d.arrSize ≤ 1 := by omega
      have h1' : d.errorOccurred = false := by simpa using a2
      have e1 : copyDLPData A N (some d) { tauInit L with res := res } =
          .ok (Tau.fail { tauInit L with res := res } .copyDLPData 130) := by
        rw [copyDLPData, guarded_none _ rfl]; simp [h1', hle]
      rw [e1, Res.ok_bind, checkGeometry, guarded_err _ (by simp)] at e
      cases e; simp at he
    · obtain ⟨t', e', hc, -⟩ := copyDLPData_spec L A N (res := res) (by simpa using a2) hs hw
      rw [e', Res.ok_bind] at e
      by_cases ht : t'.err = none
      swap
      · rw [checkGeometry, guarded_err _ ht] at e
        cases e; exact absurd he ht
      have C := hc ht
      have len : ∀ {f : DFld} {l}, f ≠ .rawTauThreshold → d.arr f = some l →
          l.length = t'.arrSize := by
        intro f l hf hl
        obtain ⟨l', h, hlen⟩ := hw f hf
        rw [hl] at h
        cases h
        rw [hlen, C.size]
      have G : GoodShape t' phi B D rho := by
        refine ⟨ht, ⟨?_, len (by decide) h1⟩, ⟨?_, len (by decide) h2⟩, ⟨?_, len (by decide) h3⟩,
          ⟨?_, len (by decide) h4⟩, ?_, n1, n2, n3, n4⟩
        · rw [C.copied .phi .phi rfl, h1]
        · rw [C.copied .B .B rfl, h2]
        · rw [C.copied .D .D rfl, h3]
        · rw [C.copied .rho .rho rfl, h4]
        · rw [C.size]; omega
      obtain ⟨u, hu, hframe, hiff⟩ := C04_geometry_partial L hL N hN t' phi B D rho G
        (by rw [C.resolution]; exact hr)
      rw [hu, Res.ok_bind] at e
      cases e
      have := hiff.1 he
      rw [show t.dx = t'.dx by rw [← hframe], show t.res = t'.res by rw [← hframe]]
      exact this

/-- The hypotheses of the theorems above are satisfiable: the tau object made from
`exampleDLP` is accepted. -/
example : ∃ t, createFromDLP exactLib exampleAlloc exactNum (some exampleDLP) (.fin 2) =
    .ok (some t) ∧ t.err = none ∧ LegalGeometry (fun q => exactNum.mul (exactNum.lit (199 / 100)) (.fin q))
      [.fin 3, .fin 4, .fin 5] [.fin 3, .fin 4, .fin 5] [.fin 3, .fin 4, .fin 5]
      [.fin 100, .fin 101, .fin 102] t.dx t.res := by
  obtain ⟨t, e, he⟩ := exampleDLP_created
  have nf : NaNFree [.fin 3, .fin 4, .fin 5] := by simp [NaNFree]
  have nr : NaNFree [.fin 100, .fin 101, .fin 102] := by simp [NaNFree]
  exact ⟨t, e, he, C04_create_partial exactLib exactLib_lawful exampleAlloc exactNum
    (fun q => rfl) exampleDLP (.fin 2) exampleDLP_wf _ _ _ _ rfl rfl rfl rfl nf nf nf nr rfl t e he⟩

end Verif
