import Verif.Model.CsvData
import Verif.Props.C42
import Verif.Base.Exact

/-!
# C44: errors of the extraction functions
-/
namespace Verif
open Spec Data

/-- Digits with an optional sign. -/
def signedAtof (s : List Char) : Dbl :=
  if '-' ∈ s then Dbl.op (fun a b => a - b) (.fin 0) (demoAtof s) else demoAtof s

/-- The value of the last node that is not to the right of the point. -/
def stepInterp (xs ys ns : List Dbl) : List Dbl :=
  ns.map fun x => ((xs.zip ys).filter fun p => p.1.le x).getLast?.elim .nan (·.2)

/-- A library for the examples. -/
def demoData : DataLib where
  csv _ := { demoLib with atof := signedAtof }
  self := true
  obj _ := true
  mem _ := true
  junk _ _ := .fin (-7)
  sub := exactNum.sub
  div := exactNum.div
  pow := {
    abs := fun x => if x.lt (.fin 0) then exactNum.sub (.fin 0) x else x
    sind := id
    exp := id
    neg := exactNum.sub (.fin 0)
    div := exactNum.div }
  interp := stepInterp

/-- A file of the given format, from its rows. -/
def fileFrom (k : Kind) (dep : Bool) (rows : List (Col → String)) : List Char :=
  fileOf (rows.map fun f => (readOrder k dep).map fun c => (f c).toList)

/-- A row of a profile. -/
def dlpRow (rho t : String) : Col → String
  | .rho => rho
  | .tSet => t
  | .tOet => t
  | .B => "-2"
  | .rawTau => "6"
  | _ => "5"

/-- A row of a geometry file. -/
def geoRow (rho rhoDot D : String) : Col → String
  | .rho => rho
  | .rhoDot => rhoDot
  | .D => D
  | _ => "4"

/-- A row of a calibration file. -/
def calRow (t pred resid : String) : Col → String
  | .tOet => t
  | .fSkyPred => pred
  | .fSkyResid => resid
  | _ => "1"

/-- Geometry, calibration, profile of an egress occultation. -/
def egressFiles : Inputs where
  geo := some (fileFrom .geo false [geoRow "105" "-1" "7", geoRow "102" "0" "8", geoRow "101" "2" "30",
    geoRow "120" "3" "40", geoRow "140" "3" "50"])
  cal := some (fileFrom .cal false [calRow "1" "900" "10", calRow "2" "800" "20", calRow "3" "700" "30"])
  dlp := some (fileFrom .dlp false [dlpRow "110" "1", dlpRow "120" "2", dlpRow "130" "3"])
  tau := none

/-- The files read by the extraction functions, in the order in which they are read. -/
def Data.Inputs.all (M : Mission) (I : Inputs) : List (Kind × Option (List Char)) :=
  (.geo, I.geo) :: ((if M = .cassini then [(.cal, I.cal)] else []) ++
    (.dlp, I.dlp) :: (match I.tau with
      | none => []
      | some fp => [(.tau, fp)]))

/-- What reading one of the files gives. -/
abbrev readOf (L : DataLib) (M : Mission) (dep radians : Bool) (p : Kind × Option (List Char)) : Res Csv :=
  csvExtract (L.csv p.1) (format M p.1) dep radians p.2

/-- One of the files is missing, invalid or empty, or there is no memory for its object. -/
def BadInput (L : DataLib) (M : Mission) (dep radians : Bool) (p : Kind × Option (List Char)) : Prop :=
  L.obj p.1 = false ∨ ∃ x, readOf L M dep radians p = .ok x ∧ (x.err ≠ none ∨ x.n = 0)

theorem combine_error (L : DataLib) (M : Mission) (I : Inputs) {o : CsvData} (h : o.err ≠ none) :
    combine L M I o = .ok o := by
  have h' : o.err.isSome = true := Option.isSome_iff_ne_none.2 h
  have e1 : steal L M o = .ok o := by unfold steal; rw [if_pos h']
  have e2 : malloc L M o = .ok o := by unfold malloc; rw [if_pos h']
  have e3 : checkChord L o = .ok o := by unfold checkChord; rw [if_pos h']
  have e4 : interpGeo L o = .ok o := by unfold interpGeo; rw [if_pos h']
  have e5 : interpCal L o = .ok o := by unfold interpCal; rw [if_pos h']
  have e6 : interpTau L o = .ok o := by unfold interpTau; rw [if_pos h']
  unfold combine ifTau
  rw [e1, Res.ok_bind, e2, Res.ok_bind, e3, Res.ok_bind, e4, Res.ok_bind]
  cases M
  · simp only [e5, Res.ok_bind]
    cases I.tau
    · rfl
    · exact e6
  · simp only [Res.ok_bind]
    cases I.tau
    · rfl
    · exact e6

theorem extractFile_error (L : DataLib) (M : Mission) (k : Kind) (fp : Option (List Char)) {o : CsvData}
    (h : o.err ≠ none) : extractFile L M k fp o = .ok o := by
  unfold extractFile
  rw [if_pos (Option.isSome_iff_ne_none.2 h)]

/-- A file that is read without problem. -/
theorem extractFile_good (L : DataLib) (M : Mission) (k : Kind) (fp : Option (List Char)) {o : CsvData}
    (h : o.err = none) {x : Csv} (hobj : L.obj k = true)
    (hx : csvExtract (L.csv k) (format M k) o.dep o.radians fp = .ok x) (he : x.err = none)
    (hn : x.n ≠ 0) :
    extractFile L M k fp o = .ok { o with
      file := fun k' => if k' = k then some x else o.file k'
      n := if k = .dlp then x.n else o.n } := by
  unfold extractFile
  rw [h]
  simp only [Option.isSome_none, Bool.false_eq_true, if_false, hobj, Bool.not_true, hx, Res.ok_bind, he, hn]
  split <;> simp_all

/-- A file that cannot be used. -/
theorem extractFile_bad (L : DataLib) (M : Mission) (k : Kind) (fp : Option (List Char)) {o : CsvData}
    (h : o.err = none) (hst : o.stolen = false) (hb : BadInput L M o.dep o.radians (k, fp)) :
    ∃ o', extractFile L M k fp o = .ok o' ∧ o'.err ≠ none ∧
      (L.obj k = true ∨ k ≠ .tau ∧ o.file .dlp = none → o'.file .dlp = none) := by
  unfold extractFile
  rw [if_neg (by rw [h]; simp)]
  have noobj : L.obj k = false → ∃ o', (if (!L.obj k) = true then
        Res.ok (fail { o with file := fun k' => if k' = k then none else o.file k' } (.noObject k))
      else do
        let x ← csvExtract (L.csv k) (format M k) o.dep o.radians fp
        let o := { o with file := fun k' => if k' = k then some x else o.file k' }
        if x.err.isSome then destroyMembers (fail o (.badFile k))
        else if x.n = 0 then destroyMembers (fail o (.empty k))
        else if k = .dlp then .ok { o with n := x.n }
        else .ok o) = .ok o' ∧ o'.err ≠ none ∧
      (L.obj k = true ∨ k ≠ .tau ∧ o.file .dlp = none → o'.file .dlp = none) := by
    intro ho
    rw [if_pos (by rw [ho]; rfl)]
    refine ⟨_, rfl, by simp [fail], fun hk => ?_⟩
    rcases hk with hk | hk
    · rw [ho] at hk; cases hk
    · simp [fail, hk.2]
  rcases hb with hb | ⟨x, hx, hb⟩
  · exact noobj hb
  · by_cases ho : L.obj k = true
    · simp only [readOf] at hx
      rw [if_neg (by rw [ho]; simp), hx, Res.ok_bind]
      have hd : ∀ e, destroyMembers (fail { o with
            file := fun k' => if k' = k then some x else o.file k' } e) =
          .ok { o with file := fun _ => none, arr := fun _ => none, stolen := false, err := some e } := by
        intro e
        unfold destroyMembers fail
        simp [hst]
      simp only []
      split
      · rw [hd]; exact ⟨_, rfl, by simp, fun _ => rfl⟩
      · rename_i he
        rcases hb with hb | hb
        · exact absurd (Option.isSome_iff_ne_none.2 hb) he
        · rw [if_pos hb, hd]; exact ⟨_, rfl, by simp, fun _ => rfl⟩
    · exact noobj (by simpa using ho)

/-- All the files: either one of them is bad and the object has an error, or all are stored. -/
theorem extractList (L : DataLib) (M : Mission) : ∀ (ps : List (Kind × Option (List Char))) (o : CsvData),
    o.stolen = false → (∀ p ∈ ps, (readOf L M o.dep o.radians p).Safe) →
    ∃ o', ps.foldlM (fun o p => extractFile L M p.1 p.2 o) o = .ok o' ∧
      (o.err ≠ none ∨ (∃ p ∈ ps, BadInput L M o.dep o.radians p) → o'.err ≠ none) := by
  intro ps
  induction ps with
  | nil =>
    intro o _ _
    refine ⟨o, rfl, fun h => ?_⟩
    rcases h with h | ⟨p, hp, -⟩
    · exact h
    · cases hp
  | cons p ps ih =>
    intro o hst hs
    rw [List.foldlM_cons]
    by_cases he : o.err = none
    · by_cases hb : BadInput L M o.dep o.radians p
      · obtain ⟨o', e', h1, -⟩ := extractFile_bad L M p.1 p.2 he hst hb
        rw [e', Res.ok_bind]
        have : ∀ qs : List (Kind × Option (List Char)),
            qs.foldlM (fun o p => extractFile L M p.1 p.2 o) o' = .ok o' := by
          intro qs
          induction qs with
          | nil => rfl
          | cons q qs ih => rw [List.foldlM_cons, extractFile_error L M _ _ h1, Res.ok_bind, ih]
        exact ⟨o', this ps, fun _ => h1⟩
      · obtain ⟨x, hx⟩ := hs p (by simp)
        have hx' : readOf L M o.dep o.radians p = .ok x := hx
        have ho : L.obj p.1 = true := by
          by_contra hc; exact hb (.inl (by simpa using hc))
        have hxe : x.err = none := by
          by_contra hc; exact hb (.inr ⟨x, hx', .inl hc⟩)
        have hxn : x.n ≠ 0 := fun hc => hb (.inr ⟨x, hx', .inr hc⟩)
        rw [extractFile_good L M p.1 p.2 he ho hx' hxe hxn, Res.ok_bind]
        obtain ⟨o', e', h⟩ := ih { o with
          file := fun k' => if k' = p.1 then some x else o.file k'
          n := if p.1 = .dlp then x.n else o.n } hst (fun q hq => hs q (by simp [hq]))
        refine ⟨o', e', fun hh => h ?_⟩
        rcases hh with hh | ⟨q, hq, hbq⟩
        · exact absurd he hh
        · rw [List.mem_cons] at hq
          rcases hq with rfl | hq
          · exact absurd hbq hb
          · exact .inr ⟨q, hq, hbq⟩
    · rw [extractFile_error L M _ _ he, Res.ok_bind]
      obtain ⟨o', e', h⟩ := ih o hst (fun q hq => hs q (by simp [hq]))
      exact ⟨o', e', fun _ => h (.inl he)⟩

theorem extractAll_eq (L : DataLib) (M : Mission) (I : Inputs) (o : CsvData) :
    extractAll L M I o = (I.all M).foldlM (fun o p => extractFile L M p.1 p.2 o) o := by
  unfold extractAll Inputs.all ifTau
  cases M <;> cases I.tau <;> simp [List.foldlM_cons]

/-- **C44** (Cassini) If one of the files is missing, invalid or empty, or there is no memory for one
of the objects, the function returns an object with an error (or NULL, if there is no memory for it),
provided that reading the files has no undefined behaviour (see C42). -/
theorem C44_cassini (L : DataLib) (I : Inputs) (dep : Bool)
    (hsafe : ∀ p ∈ I.all .cassini, (readOf L .cassini dep true p).Safe)
    (hbad : ∃ p ∈ I.all .cassini, BadInput L .cassini dep true p) :
    ∃ r, extract L .cassini I dep = .ok r ∧ ∀ o, r = some o → o.err ≠ none := by
  unfold extract
  cases hself : L.self
  · exact ⟨none, rfl, nofun⟩
  · simp only [Bool.not_true, Bool.false_eq_true, if_false]
    rw [extractAll_eq]
    obtain ⟨o', e', h⟩ := extractList L .cassini (I.all .cassini) { init with dep := dep } rfl hsafe
    rw [e', Res.ok_bind, combine_error L _ I (h (.inr hbad)), Res.ok_bind]
    have : finish .cassini o' = .ok { o' with file := fun _ => none, stolen := false } := by
      unfold finish
      split
      · rename_i hc _; cases hc
      · rfl
    rw [this, Res.ok_bind]
    refine ⟨_, rfl, fun o ho => ?_⟩
    cases ho
    exact h (.inr hbad)

example : ∃ r, extract demoData .cassini { egressFiles with cal := none } false = .ok r ∧
    ∀ o, r = some o → o.err ≠ none := by
  refine C44_cassini demoData _ false (fun p hp => ?_) ⟨(.cal, none), by simp [Inputs.all], .inr ?_⟩
  · have : ∀ p ∈ [(Kind.geo, egressFiles.geo), (.cal, none), (.dlp, egressFiles.dlp)],
        (readOf demoData .cassini false true p).test (fun _ => true) = true := by decide +kernel
    obtain ⟨a, h, -⟩ := Res.of_test (this p hp)
    exact ⟨a, h⟩
  · obtain ⟨x, h, e⟩ := Res.of_test (x := readOf demoData .cassini false true (.cal, none))
      (p := fun x => x.err.isSome) (by decide +kernel)
    exact ⟨x, h, .inl (Option.isSome_iff_ne_none.1 e)⟩

/-- **C44** is false for Uranus: if the geometry or the diffraction-limited file is missing, invalid or
empty, or the optical depth file is, line 80 dereferences a NULL pointer — for every library and all
files. (Only a failing allocation of the optical depth object is survived.) -/
theorem C44_uranus_false (L : DataLib) (I : Inputs) (radians : Bool) (hself : L.self = true)
    (hsafe : ∀ p ∈ I.all .uranus, (readOf L .uranus false radians p).Safe)
    (hbad : ∃ p ∈ I.all .uranus, (p.1 ≠ .tau ∨ L.obj .tau = true) ∧ BadInput L .uranus false radians p) :
    extract L .uranus I radians = .ub .nullDeref := by
  have key : ∃ o', extractAll L .uranus I { init with radians := radians } = .ok o' ∧ o'.err ≠ none ∧
      o'.file .dlp = none := by
    rw [extractAll_eq]
    unfold Inputs.all at hsafe hbad ⊢
    simp only [reduceCtorEq, if_false, List.nil_append] at hsafe hbad ⊢
    have stop : ∀ (qs : List (Kind × Option (List Char))) (o' : CsvData), o'.err ≠ none →
        qs.foldlM (fun o p => extractFile L .uranus p.1 p.2 o) o' = .ok o' := by
      intro qs o' h1
      induction qs with
      | nil => rfl
      | cons q qs ih => rw [List.foldlM_cons, extractFile_error L _ _ _ h1, Res.ok_bind, ih]
    have good : ∀ (p : Kind × Option (List Char)) (o : CsvData), o.err = none →
        (readOf L .uranus o.dep o.radians p).Safe → ¬ BadInput L .uranus o.dep o.radians p →
        ∃ x : Csv, extractFile L .uranus p.1 p.2 o = .ok { o with
          file := fun k' => if k' = p.1 then some x else o.file k'
          n := if p.1 = .dlp then x.n else o.n } := by
      intro p o he ⟨x, hx⟩ hb
      refine ⟨x, extractFile_good L _ p.1 p.2 he ?_ hx ?_ ?_⟩
      · by_contra hc; exact hb (.inl (by simpa using hc))
      · by_contra hc; exact hb (.inr ⟨x, hx, .inl hc⟩)
      · exact fun hc => hb (.inr ⟨x, hx, .inr hc⟩)
    rw [List.foldlM_cons]
    by_cases b1 : BadInput L .uranus false radians (.geo, I.geo)
    · obtain ⟨o', e', h1, h2⟩ := extractFile_bad L .uranus .geo I.geo
        (o := { init with radians := radians }) rfl rfl b1
      rw [e', Res.ok_bind, stop _ _ h1]
      exact ⟨o', rfl, h1, h2 (.inr ⟨by decide, rfl⟩)⟩
    · obtain ⟨x, ex⟩ := good (.geo, I.geo) { init with radians := radians } rfl
        (hsafe _ (by simp)) b1
      rw [ex, Res.ok_bind, List.foldlM_cons]
      by_cases b2 : BadInput L .uranus false radians (.dlp, I.dlp)
      · obtain ⟨o', e', h1, h2⟩ := extractFile_bad L .uranus .dlp I.dlp
          (o := { (init) with
            radians := radians
            file := fun k' => if k' = (Kind.geo, I.geo).1 then some x else init.file k'
            n := if (Kind.geo, I.geo).1 = .dlp then x.n else init.n }) rfl rfl b2
        rw [e', Res.ok_bind, stop _ _ h1]
        exact ⟨o', rfl, h1, h2 (.inr ⟨by decide, rfl⟩)⟩
      · obtain ⟨y, ey⟩ := good (.dlp, I.dlp) { (init) with
            radians := radians
            file := fun k' => if k' = (Kind.geo, I.geo).1 then some x else init.file k'
            n := if (Kind.geo, I.geo).1 = .dlp then x.n else init.n } rfl
          (hsafe _ (by simp)) b2
        rw [ey, Res.ok_bind]
        cases htau : I.tau with
        | none =>
          rw [htau] at hbad
          obtain ⟨p, hp, -, hb⟩ := hbad
          simp only [List.mem_cons, List.not_mem_nil, or_false] at hp
          rcases hp with rfl | rfl
          · exact absurd hb b1
          · exact absurd hb b2
        | some fp =>
          rw [htau] at hbad hsafe
          obtain ⟨p, hp, hq, hb⟩ := hbad
          simp only [List.mem_cons, List.not_mem_nil, or_false] at hp
          rcases hp with rfl | rfl | rfl
          · exact absurd hb b1
          · exact absurd hb b2
          · have hobj : L.obj .tau = true := by
              rcases hq with hq | hq
              · exact absurd rfl hq
              · exact hq
            simp only [List.foldlM_cons, List.foldlM_nil, Res.pure_eq, Res.bind_ok]
            obtain ⟨o', e', h1, h2⟩ := extractFile_bad L .uranus .tau fp
              (o := { (init) with
                radians := radians
                file := fun k' => if k' = (Kind.dlp, I.dlp).1 then some y
                  else if k' = (Kind.geo, I.geo).1 then some x else init.file k'
                n := if (Kind.dlp, I.dlp).1 = .dlp then y.n
                  else if (Kind.geo, I.geo).1 = .dlp then x.n else init.n }) rfl rfl hb
            exact ⟨o', e', h1, h2 (.inl hobj)⟩
  obtain ⟨o', e', h1, h2⟩ := key
  unfold extract
  rw [hself]
  simp only [Bool.not_true, Bool.false_eq_true, if_false]
  rw [e', Res.ok_bind, combine_error L _ I h1, Res.ok_bind]
  unfold finish
  rw [h2]
  rfl

example : extract demoData .uranus { egressFiles with dlp := none } false = .ub .nullDeref := by
  refine C44_uranus_false demoData _ false rfl (fun p hp => ?_)
    ⟨(.dlp, none), by simp [Inputs.all], .inl (by decide), .inr ?_⟩
  · have : ∀ p ∈ [(Kind.geo, egressFiles.geo), (.dlp, none)],
        (readOf demoData .uranus false false p).test (fun _ => true) = true := by decide +kernel
    obtain ⟨a, h, -⟩ := Res.of_test (this p hp)
    exact ⟨a, h⟩
  · obtain ⟨x, h, e⟩ := Res.of_test (x := readOf demoData .uranus false false (.dlp, none))
      (p := fun x => x.err.isSome) (by decide +kernel)
    exact ⟨x, h, .inl (Option.isSome_iff_ne_none.1 e)⟩

/-! ### Failing allocations -/

theorem allocCols_fails (V : CsvLib) : ∀ (cs : List Col) (o : Csv), (∃ c ∈ cs, V.mem c = false) →
    (allocCols V cs o).err = some .memory ∧ ∀ c, (allocCols V cs o).arr c = none := by
  intro cs
  induction cs with
  | nil => rintro o ⟨c, hc, -⟩; cases hc
  | cons d cs ih =>
    intro o h
    unfold allocCols
    by_cases hd : V.mem d = true
    · rw [if_pos hd]
      refine ih _ ?_
      obtain ⟨c, hc, hm⟩ := h
      rcases List.mem_cons.1 hc with rfl | hc
      · rw [hd] at hm; cases hm
      · exact ⟨c, hc, hm⟩
    · rw [if_neg hd]
      exact ⟨rfl, fun _ => rfl⟩

/-- **C44** If there is no memory for one of the columns of a file, then reading this file (of any format) reports an error,
and no array is left in the object. -/
theorem C44_memory (V : CsvLib) (k : Kind) (dep radians : Bool) (f : List Char)
    (h1 : V.columnCount f = documentedColumns k dep) (h2 : V.lineCount f ≠ 0) (c : Col) (hc : c ∈ documentedOrder k dep)
    (hm : V.mem c = false) :
    ∃ o, csvExtract V k dep radians (some f) = .ok o ∧ o.err = some .memory ∧ ∀ c, o.arr c = none := by
  have hr : columnsRejected k dep (V.columnCount f) = false := by
    rw [h1]; cases k <;> cases dep <;> rfl
  have ha : c ∈ allocOrder k dep := by
    have : ∀ k dep, ∀ c ∈ documentedOrder k dep, c ∈ allocOrder k dep := by
      intro k dep; cases k <;> cases dep <;> decide
    exact this k dep c hc
  obtain ⟨e1, e2⟩ := allocCols_fails V (allocOrder k dep)
    { csvInit with dep := dep, radians := radians, n := V.lineCount f } ⟨c, ha, hm⟩
  refine ⟨_, ?_, e1, e2⟩
  simp only [csvExtract, checkColumnCount, csvInit, Option.isSome_none, Bool.false_eq_true, if_false, hr, csvMalloc, if_neg h2]
  unfold readData
  simp only [csvInit] at e1
  rw [if_pos (by rw [e1]; rfl)]

example : ∃ o, csvExtract { demoLib with mem := fun c => decide (c ≠ .phase) } .dlp false false
    (some (fileFrom .dlp false [dlpRow "110" "1"])) = .ok o ∧ o.err = some .memory ∧ ∀ c, o.arr c = none :=
  C44_memory _ .dlp false false _ (by decide +kernel) (by decide +kernel) .phase (by decide) (by decide)

end Verif
