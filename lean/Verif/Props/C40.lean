import Verif.Proofs.Csv
import Mathlib.Tactic.NormNum

/-!
# C40, C41, C42, C49, C50: reading CSV files
-/
namespace Verif
open Spec

/-! ### A concrete library for the examples -/

/-- Digits of a text as a natural number (other characters are skipped). -/
def demoAtof (s : List Char) : Dbl :=
  .fin (((s.filter Char.isDigit).foldl (fun a c => 10 * a + (c.toNat - 48)) 0 : Nat) : Rat)

/-- A library that satisfies `CsvLaws`: it counts newlines, and the tokens of the first line. -/
def demoLib : CsvLib where
  lineCount f := f.count '\n'
  columnCount f := (toks (f.takeWhile (· ≠ '\n'))).length
  atof := demoAtof
  mul a b := match a, b with
    | .fin x, .fin y => .fin (x * y)
    | _, _ => .nan
  mem _ := true
  junk _ _ := .fin (-7)

theorem demoLib_laws : CsvLaws demoLib where
  atof s := by simp [demoLib, demoAtof, List.filter_append]
  lineCount f _ := rfl
  columnCount row rest hne h := by
    have hc : ∀ c ∈ joinComma row, c ≠ '\n' :=
      joinComma_clean (P := fun c => c ≠ '\n') (by decide) (fun s hs c hc => ((h s hs).2 c hc).2.1)
    have e : (lineOf row ++ rest).takeWhile (· ≠ '\n') = joinComma row := by
      rw [lineOf, List.append_assoc, List.takeWhile_append_of_pos (by simpa using hc)]
      simp
    simp only [demoLib]
    rw [e]
    have := toks_joinComma [] (by simp) h hne
    rw [List.append_nil, List.append_nil] at this
    rw [this]
    simp
    have : row.length ≠ 0 := by simpa using hne
    omega

/-- A table with two rows for the calibration format. -/
def calRows : List (List (List Char)) := ["1".toList, "2".toList, "3".toList, "4".toList] ::
  [["50".toList, "60".toList, "70".toList, "80".toList]]

theorem calRows_table : IsTable 4 calRows where
  nonempty := by decide
  width := by decide
  fields := by unfold IsField; decide
  short := by decide

/-! ### C40 -/

/-- **C40** The check accepts exactly the documented number of columns; otherwise, and for a NULL
file, it sets an error; nothing else changes; an earlier error is kept. -/
theorem C40_check (V : CsvLib) (k : Kind) (fp : Option (List Char)) (o : Csv) :
    let o' := checkColumnCount V k fp o
    (o.err = none → (o'.err = none ↔ ∃ f, fp = some f ∧ V.columnCount f = documentedColumns k o.dep)) ∧
    (o.err ≠ none → o' = o) ∧ (o' = o ∨ ∃ e, o' = { o with err := some e }) := by
  have hd : ∀ (dep : Bool) (m : Nat), columnsRejected k dep m = true ↔ m ≠ documentedColumns k dep := by
    intro dep m
    cases k <;> cases dep <;> simp [columnsRejected, documentedColumns]
  unfold checkColumnCount Csv.fail
  rcases he : o.err with _ | e
  · simp only [Option.isSome_none, Bool.false_eq_true, if_false]
    refine ⟨fun _ => ?_, fun h => absurd rfl h, ?_⟩
    · rcases fp with _ | f
      · simp
      · simp only [Option.some.injEq, exists_eq_left']
        split
        · rename_i h
          simpa using (hd o.dep _).1 h
        · rename_i h
          rw [hd, not_not] at h
          simp [h, he]
    · rcases fp with _ | f
      · exact .inr ⟨_, rfl⟩
      · simp only []
        split
        · exact .inr ⟨_, rfl⟩
        · exact .inl rfl
  · simp

/-- **C40** In terms of the text: a file whose first line consists of the fields `row` is accepted
if and only if there are as many as documented. -/
theorem C40_fields {V : CsvLib} (hV : CsvLaws V) (k : Kind) (o : Csv) (ho : o.err = none)
    {row : List (List Char)} (hne : row ≠ []) (h : ∀ s ∈ row, IsField s) (rest : List Char) :
    (checkColumnCount V k (some (lineOf row ++ rest)) o).err = none ↔
      row.length = documentedColumns k o.dep := by
  rw [(C40_check V k _ o).1 ho]
  simp [hV.columnCount row rest hne h]

/-- **C40** The columns are read in the documented order, as many as checked. -/
theorem C40_order (k : Kind) (dep : Bool) :
    readOrder k dep = documentedOrder k dep ∧ (readOrder k dep).length = documentedColumns k dep := by
  cases k <;> cases dep <;> decide

example : (checkColumnCount demoLib .cal (some (fileOf calRows)) csvInit).err = none ∧
    (checkColumnCount demoLib .dlp (some (fileOf calRows)) csvInit).err = some .columns := by
  decide +kernel

/-! ### Extraction up to `Read_Data` -/

/-- The object after a successful `*_Malloc`. -/
structure CsvAllocated (V : CsvLib) (k : Kind) (dep radians : Bool) (N : Nat) (o : Csv) : Prop where
  hn : o.n = N
  err : o.err = none
  hdep : o.dep = dep
  hrad : o.radians = radians
  arr : ∀ c ∈ allocOrder k dep, o.arr c = some ((List.range N).map (V.junk c))

theorem CsvAllocated.sized {V : CsvLib} {k : Kind} {dep radians : Bool} {n : Nat} {o : Csv}
    (h : CsvAllocated V k dep radians n o) : Sized o (readOrder k dep) n := fun c hc =>
  ⟨_, h.arr c (readOrder_sub k dep c hc), by simp⟩

theorem extract_eq {V : CsvLib} {k : Kind} {dep radians : Bool} {f : List Char}
    (hc : V.columnCount f = documentedColumns k dep) (hn : V.lineCount f ≠ 0)
    (hm : ∀ c ∈ allocOrder k dep, V.mem c = true) :
    ∃ o, CsvAllocated V k dep radians (V.lineCount f) o ∧
      csvExtract V k dep radians (some f) = readData V k (some f) o := by
  have h0 : checkColumnCount V k (some f) { csvInit with dep := dep, radians := radians } =
      { csvInit with dep := dep, radians := radians } := by
    have h1 := ((C40_check V k (some f) { csvInit with dep := dep, radians := radians }).1 rfl).2
      ⟨f, rfl, hc⟩
    rcases (C40_check V k (some f) { csvInit with dep := dep, radians := radians }).2.2 with h | ⟨e, h⟩
    · exact h
    · rw [h] at h1; cases h1
  refine ⟨csvMalloc V k (some f) { csvInit with dep := dep, radians := radians }, ?_, ?_⟩
  · simp only [csvMalloc, csvInit, Option.isSome_none, Bool.false_eq_true, if_false, hn]
    obtain ⟨h1, h2, -⟩ := allocCols_ok V (allocOrder k dep)
      { csvInit with dep := dep, radians := radians, n := V.lineCount f } hm
    exact ⟨h1.n, h1.err, h1.dep, h1.radians, h2⟩
  · simp only [csvExtract]
    rw [h0]

/-- A list is determined by its length and entries. -/
theorem list_eq_map {α β : Type} {l : List β} {rows : List α} {g : α → β} (hl : l.length = rows.length)
    (h : ∀ (i : Nat) (x : α), rows[i]? = some x → l[i]? = some (g x)) : l = rows.map g := by
  apply List.ext_getElem?
  intro i
  rw [List.getElem?_map]
  rcases e : rows[i]? with _ | x
  · rw [List.getElem?_eq_none_iff] at e
    simpa using (by omega : l.length ≤ i)
  · simpa using h i x e

/-- What reading the lines of a table stores. -/
theorem table_stored {V : CsvLib} (hV : CsvLaws V) {k : Kind} {dep : Bool}
    {rows : List (List (List Char))} (hw : ∀ row ∈ rows, row.length = documentedColumns k dep)
    (hf : ∀ row ∈ rows, ∀ s ∈ row, IsField s) {N : Nat} {o : Csv}
    (hS : Sized o (readOrder k dep) N) (hN : rows.length ≤ N) :
    ∃ o', readRows V (readOrder k dep) (rows.map lineOf) 0 o = .ok o' ∧ SameButArr o o' ∧
      ∀ j c, (documentedOrder k dep)[j]? = some c → ∃ l l', o.arr c = some l ∧ o'.arr c = some l' ∧
        l'.length = N ∧ (∀ i : Nat, rows.length ≤ i → l'[i]? = l[i]?) ∧
        l'.take rows.length = rows.map (fun row => V.atof (row.getD j [])) := by
  have hpos : 0 < documentedColumns k dep := by cases k <;> cases dep <;> decide
  have htok : ∀ row ∈ rows, tokens (lineOf row) = row.dropLast ++ [row.getLastD [] ++ ['\n']] := by
    intro row hr
    refine tokens_lineOf (hf row hr) (fun h => ?_)
    have := hw row hr
    rw [h] at this
    simp at this
    omega
  obtain ⟨o', e, h⟩ := readRows_ok V (readOrder_nodup k dep) (rows.map lineOf) 0 o hS (by simpa using hN)
    (by
      intro s hs
      obtain ⟨row, hr, rfl⟩ := List.mem_map.1 hs
      rw [htok row hr, (C40_order k dep).2, ← hw row hr]
      have := hw row hr
      simp
      omega)
  refine ⟨o', e, h.same, fun j c hj => ?_⟩
  rw [← (C40_order k dep).1] at hj
  obtain ⟨l, l', a, b, d, h1, h2⟩ := h.vals j c hj
  obtain ⟨l0, e0, hl0⟩ := hS c (List.mem_of_getElem? hj)
  rw [a] at e0; cases e0
  refine ⟨l, l', a, b, by omega, fun i hi => h1 i (.inr (by simpa using hi)), ?_⟩
  refine list_eq_map (by simp; omega) fun i row hi => ?_
  have hr : row ∈ rows := List.mem_of_getElem? hi
  have hilt : i < rows.length := (List.getElem?_eq_some_iff.1 hi).1
  obtain ⟨t, ht, hv⟩ := h2 i (lineOf row) (by rw [List.getElem?_map, hi]; rfl)
  rw [Nat.zero_add] at hv
  rw [List.getElem?_take_of_lt hilt, hv]
  congr 1
  rw [htok row hr] at ht
  have hjl : j < documentedColumns k dep := by
    rw [← (C40_order k dep).2]; exact (List.getElem?_eq_some_iff.1 hj).1
  have hrl := hw row hr
  by_cases hlast : j + 1 < row.length
  · rw [List.getElem?_append_left (by simp; omega), List.getElem?_dropLast, if_pos (by omega)] at ht
    rw [List.getD, ht]; rfl
  · have hj' : j = row.length - 1 := by omega
    rw [List.getElem?_append_right (by simp; omega)] at ht
    simp only [List.length_dropLast, hj', Nat.sub_self, List.getElem?_cons_zero, Option.some.injEq] at ht
    subst ht
    rw [hV.atof, hj']
    congr 1
    rw [List.getLastD_eq_getLast?, List.getLast?_eq_getElem?, List.getD]

/-! ### C41 -/

theorem fileOf_count {cols : Nat} {rows : List (List (List Char))} (h : IsTable cols rows) :
    (fileOf rows).count '\n' = rows.length ∧ (fileOf rows).getLast? = some '\n' := by
  have hc : ∀ row ∈ rows, (lineOf row).count '\n' = 1 := by
    intro row hr
    have h0 : (joinComma row).count '\n' = 0 := by
      rw [List.count_eq_zero]
      intro hm
      exact joinComma_clean (P := fun c => c ≠ '\n') (by decide)
        (fun s hs c hc => ((h.fields row hr s hs).2 c hc).2.1) _ hm rfl
    rw [lineOf, List.count_append, h0]
    rfl
  constructor
  · rw [fileOf, List.count_flatMap]
    rw [List.map_congr_left (g := fun _ => 1) (fun row hr => by simpa using hc row hr)]
    simp
  · obtain ⟨l, last, rfl⟩ : ∃ l last, rows = l ++ [last] :=
      ⟨_, _, (List.dropLast_append_getLast h.nonempty).symm⟩
    rw [fileOf, List.flatMap_append]
    simp [lineOf]

/-- The first character of a file. -/
def startsWithB (f : List Char) : Prop := f.head? = some 'B' ∨ f.head? = some 'b'

/-- **C41** A table with the documented number of columns, written as a CSV file, is read back
exactly: no error, as many elements as rows, and the array of the `j`-th documented column holds
the numbers in field `j` of the rows.  For all formats, all numbers of rows and all texts. (Merged
data whose first character is `B` or `b` are C49, Uranus data in radians C50.) -/
theorem C41_roundtrip {V : CsvLib} (hV : CsvLaws V) (k : Kind) (dep radians : Bool)
    (hm : ∀ c ∈ allocOrder k dep, V.mem c = true) {rows : List (List (List Char))}
    (hT : IsTable (documentedColumns k dep) rows) (hB : k = .merged → ¬ startsWithB (fileOf rows))
    (hU : k = .uranus → radians = false) :
    ∃ o, csvExtract V k dep radians (some (fileOf rows)) = .ok o ∧ o.err = none ∧
      o.n = rows.length ∧ o.radians = radians ∧
      ∀ j c, (documentedOrder k dep)[j]? = some c →
        o.arr c = some (rows.map fun row => V.atof (row.getD j [])) := by
  obtain ⟨c1, c2⟩ := fileOf_count hT
  have hlc := hV.lineCount (fileOf rows) (.inr c2)
  rw [c1] at hlc
  have hne : rows.length ≠ 0 := by simpa using hT.nonempty
  have hpos : 0 < documentedColumns k dep := by cases k <;> cases dep <;> decide
  have hcol : V.columnCount (fileOf rows) = documentedColumns k dep := by
    obtain ⟨row, rest, rfl⟩ := List.exists_cons_of_ne_nil hT.nonempty
    have hrl := hT.width row (by simp)
    have := hV.columnCount row (fileOf rest) (fun h => by rw [h] at hrl; simp at hrl; omega)
      (hT.fields row (by simp))
    rw [hrl] at this
    rwa [fileOf, List.flatMap_cons]
  obtain ⟨o, hA, e⟩ := extract_eq (radians := radians) hcol (by omega) hm
  rw [hlc] at hA
  obtain ⟨o', e', hs, hv⟩ := table_stored hV (k := k) (dep := dep) hT.width hT.fields hA.sized (le_refl _)
  have hfin : readData V k (some (fileOf rows)) o = .ok o' := by
    unfold readData
    rw [hA.err]
    simp only [Option.isSome_none, Bool.false_eq_true, if_false, hA.hn, hne, hA.hdep, lines_fileOf hT]
    cases k with
    | merged =>
      have : mergedHeader (rows.map lineOf) o = (rows.map lineOf, o) := by
        obtain ⟨row, rest, rfl⟩ := List.exists_cons_of_ne_nil hT.nonempty
        rw [List.map_cons, mergedHeader, if_neg]
        intro h
        refine hB rfl ?_
        unfold startsWithB
        rw [fileOf, List.flatMap_cons]
        have : lineOf row ≠ [] := by simp [lineOf]
        rwa [List.head?_append_of_ne_nil _ this]
      simp only [this, hA.err, Option.isSome_none, Bool.false_eq_true, if_false]
      exact e'
    | uranus =>
      simp only [e', Res.ok_bind, toDegrees, hs.radians, hA.hrad, hU rfl, Bool.false_eq_true, if_false]
    | cal => exact e'
    | dlp => exact e'
    | geo => exact e'
    | tau => exact e'
  refine ⟨o', by rw [e, hfin], hs.err.trans hA.err, hs.n.trans hA.hn, hs.radians.trans hA.hrad,
    fun j c hj => ?_⟩
  obtain ⟨l, l', -, b, d, -, h2⟩ := hv j c hj
  rw [b, ← h2, List.take_of_length_le (by omega)]

example : ∃ o, csvExtract demoLib .cal false true (some (fileOf calRows)) = .ok o ∧ o.n = 2 ∧
    o.arr .fSkyPred = some [.fin 2, .fin 60] := by
  obtain ⟨o, e, -, hn, -, hv⟩ := C41_roundtrip demoLib_laws .cal false true (fun _ _ => rfl)
    calRows_table nofun nofun
  exact ⟨o, e, hn, (hv 1 .fSkyPred rfl).trans (by decide +kernel)⟩

end Verif
