import Verif.Props.C40

/-!
# C42, C49, C50: malformed rows, header lines, radians
-/
namespace Verif
open Spec

/-! ### C42 -/

/-- **C42** (exact condition) After a successful allocation of `n` entries, reading a file of one
of the formats without header has no undefined behaviour if and only if every line (as split by
`fgets` with its buffer of 1024 bytes) has at least as many non-empty fields as there are columns,
and there are at most `n` such lines.  No line ever leads to an error in the object.
Missing with respect to C42: all the other files should be rejected with an error. -/
theorem C42_safe_partial (V : CsvLib) (k : Kind) (hk : k ≠ .merged) (hk' : k ≠ .uranus) (dep radians : Bool)
    {n : Nat} (hn : n ≠ 0) {o : Csv} (hA : CsvAllocated V k dep radians n o) (f : List Char) :
    ((readData V k (some f) o).Safe ↔
      (∀ s ∈ lines f, documentedColumns k dep ≤ (tokens s).length) ∧ (lines f).length ≤ n) ∧
    ∀ o', readData V k (some f) o = .ok o' → o'.err = none ∧ o'.n = n ∧
      ∀ (j : Nat) (c : Col), (documentedOrder k dep)[j]? = some c → ∃ l, o'.arr c = some l ∧
        l.length = n ∧ ∀ (i : Nat) (s : List Char), (lines f)[i]? = some s →
          ∃ t, (tokens s)[j]? = some t ∧ l[i]? = some (V.atof t) := by
  have e : readData V k (some f) o = readRows V (readOrder k dep) (lines f) 0 o := by
    unfold readData
    rw [hA.err]
    simp only [Option.isSome_none, Bool.false_eq_true, if_false, hA.hn, hn, hA.hdep]
  rw [e, ← (C40_order k dep).2]
  have key : (∀ s ∈ lines f, (readOrder k dep).length ≤ (tokens s).length) ∧ (lines f).length ≤ n →
      ∃ o', readRows V (readOrder k dep) (lines f) 0 o = .ok o' ∧
        RowsStored V (readOrder k dep) (lines f) 0 o o' := fun h =>
    readRows_ok V (readOrder_nodup k dep) (lines f) 0 o hA.sized (by omega) h.1
  have hiff : (readRows V (readOrder k dep) (lines f) 0 o).Safe ↔
      (∀ s ∈ lines f, (readOrder k dep).length ≤ (tokens s).length) ∧ (lines f).length ≤ n := by
    constructor
    · intro hs
      by_contra hc
      refine readRows_bad V (readOrder_nodup k dep) (readOrder_ne_nil k dep) (lines f) 0 o hA.sized
        (Nat.zero_le _) ?_ hs
      rw [Classical.not_and_iff_not_or_not] at hc
      rcases hc with hc | hc
      · push Not at hc
        exact .inl hc
      · exact .inr (by omega)
    · intro h
      obtain ⟨o', e', -⟩ := key h
      exact ⟨o', e'⟩
  refine ⟨hiff, fun o' eo => ?_⟩
  obtain ⟨o'', e'', hr⟩ := key (hiff.1 ⟨o', eo⟩)
  rw [eo] at e''; cases e''
  refine ⟨hr.same.err.trans hA.err, hr.same.n.trans hA.hn, fun j c hj => ?_⟩
  rw [← (C40_order k dep).1] at hj
  obtain ⟨l, l', a, b, d, -, h2⟩ := hr.vals j c hj
  obtain ⟨l0, e0, hl0⟩ := hA.sized c (List.mem_of_getElem? hj)
  rw [a] at e0; cases e0
  refine ⟨l', b, by omega, fun i s hi => ?_⟩
  obtain ⟨t, x, y⟩ := h2 i s hi
  rw [Nat.zero_add] at y
  exact ⟨t, x, y⟩

/-- **C42** is false (1): a missing field in the second line is a NULL pointer given to `atof`. -/
theorem C42_missing_false : csvExtract demoLib .cal false true (some "1,2,3,4\n5,6,7\n".toList) =
    .ub .nullDeref := Res.of_isUB (by decide +kernel)

/-- **C42** is false (2): so is an empty line at the end of the file. -/
theorem C42_blank_false : csvExtract demoLib .cal false true (some "1,2,3,4\n\n".toList) =
    .ub .nullDeref := Res.of_isUB (by decide +kernel)

/-- **C42** is false (3): an empty field is skipped, and the following values are stored in the
wrong columns without an error: the second line has an empty second field, and the array of the
second column (predicted frequency) receives the third field. -/
theorem C42_empty_false : ∃ o, csvExtract demoLib .cal false true
      (some "1,2,3,4\n5,,7,8,9\n".toList) = .ok o ∧ o.err = none ∧ o.n = 2 ∧
    o.arr .fSkyPred = some [.fin 2, .fin 7] ∧ o.arr .fSkyResid = some [.fin 3, .fin 8] := by
  obtain ⟨o, e, h⟩ := Res.of_test (x := csvExtract demoLib .cal false true
      (some "1,2,3,4\n5,,7,8,9\n".toList)) (p := fun o => o.err == none && o.n == 2 &&
        o.arr .fSkyPred == some [.fin 2, .fin 7] && o.arr .fSkyResid == some [.fin 3, .fin 8])
      (by decide +kernel)
  simp only [Bool.and_eq_true, beq_iff_eq] at h
  exact ⟨o, e, h.1.1.1, h.1.1.2, h.1.2, h.2⟩

/-- A line of 1030 characters with four fields. -/
def longLine : List Char := "1,2,3,".toList ++ List.replicate 1022 '0' ++ "5\n".toList

/-- **C42** is false (4): a line longer than the buffer is split in two; the second half is taken
for another row and written past the end of the arrays. -/
theorem C42_long_false : csvExtract demoLib .cal false true (some longLine) = .ub .oobWrite :=
  Res.of_isUB (by decide +kernel)

/-- **C42** is false (5): with a library that counts newlines, a last line without newline is not
counted but read, and written past the end of the arrays. (libtmpl is not part of the sources;
`C42_safe_partial` says what happens for any way of counting.) -/
theorem C42_unterminated_false : csvExtract demoLib .cal false true
    (some "1,2,3,4\n5,6,7,8".toList) = .ub .oobWrite := Res.of_isUB (by decide +kernel)

/-- The hypotheses of `C42_safe_partial` are met after reading the two rows of `calRows`. -/
example : ∃ o, CsvAllocated demoLib .cal false true 2 o := by
  obtain ⟨o, h, -⟩ := extract_eq (V := demoLib) (k := .cal) (dep := false) (radians := true)
    (f := fileOf calRows) (by decide +kernel) (by decide +kernel) (fun _ _ => rfl)
  exact ⟨o, h⟩

/-! ### C49 -/

/-- A header line of a merged file. -/
structure IsHeader (hd : List Char) : Prop where
  first : hd.head? = some 'B' ∨ hd.head? = some 'b'
  clean : ∀ c ∈ hd, c ≠ '\n'
  short : hd.length < 1023

/-- **C49** A merged file with a header line yields as many elements as there are data rows, and
each column holds the values of the rows (the arrays have one unused entry at the end). -/
theorem C49_header {V : CsvLib} (hV : CsvLaws V) (hm : ∀ c ∈ allocOrder .merged false, V.mem c = true)
    {hd : List Char} (hh : IsHeader hd) {rows : List (List (List Char))} (hT : IsTable 19 rows)
    (hcol : V.columnCount (hd ++ '\n' :: fileOf rows) = 19) :
    ∃ o, csvExtract V .merged false true (some (hd ++ '\n' :: fileOf rows)) = .ok o ∧ o.err = none ∧
      o.n = rows.length ∧
      ∀ (j : Nat) (c : Col), (documentedOrder .merged false)[j]? = some c → ∃ l, o.arr c = some l ∧
        l.length = rows.length + 1 ∧ l.take o.n = rows.map fun row => V.atof (row.getD j []) := by
  obtain ⟨c1, c2⟩ := fileOf_count hT
  have hlc : V.lineCount (hd ++ '\n' :: fileOf rows) = rows.length + 1 := by
    rw [hV.lineCount _ (.inr (by
      rw [List.getLast?_append_of_ne_nil _ (by simp), List.getLast?_cons, c2]; rfl))]
    rw [List.count_append, List.count_cons_self, c1, List.count_eq_zero.2 (fun h => hh.clean _ h rfl)]
    omega
  obtain ⟨o, hA, e⟩ := extract_eq (k := .merged) (dep := false) (radians := true) hcol (by omega) hm
  rw [hlc] at hA
  have hl : lines (hd ++ '\n' :: fileOf rows) = (hd ++ ['\n']) :: rows.map lineOf := by
    have e1 : hd ++ '\n' :: fileOf rows = (hd :: rows.map joinComma).flatMap (· ++ ['\n']) := by
      rw [List.flatMap_cons, List.flatMap_map, List.append_assoc]; rfl
    rw [e1, lines_eq]
    · simp [lineOf]
    · intro l hl
      rw [List.mem_cons] at hl
      rcases hl with rfl | hl
      · exact ⟨hh.clean, hh.short⟩
      · obtain ⟨row, hr, rfl⟩ := List.mem_map.1 hl
        refine ⟨joinComma_clean (P := fun c => c ≠ '\n') (by decide)
          (fun s hs c hc => ((hT.fields row hr s hs).2 c hc).2.1), ?_⟩
        have := hT.short row hr
        rw [lineOf, List.length_append, List.length_singleton] at this
        omega
  have hmh : mergedHeader (lines (hd ++ '\n' :: fileOf rows)) o =
      (rows.map lineOf, { o with n := rows.length }) := by
    rw [hl, mergedHeader]
    have hne : hd ≠ [] := by
      intro h
      have := hh.first
      rw [h] at this
      simp at this
    rw [List.head?_append_of_ne_nil _ hne, if_pos hh.first, hA.hn]
    rfl
  have hS : Sized { o with n := rows.length } (readOrder .merged false) (rows.length + 1) := hA.sized
  obtain ⟨o', e', hs, hv⟩ := table_stored hV (k := .merged) (dep := false) hT.width hT.fields hS (by omega)
  refine ⟨o', ?_, hs.err.trans hA.err, hs.n, fun j c hj => ?_⟩
  · rw [e]
    unfold readData
    rw [hA.err]
    simp only [Option.isSome_none, Bool.false_eq_true, if_false, hA.hn, hA.hdep, hmh, hA.err]
    rw [if_neg (by omega)]
    rw [hA.err, hA.hdep] at e'
    exact e'
  · obtain ⟨l, l', -, b, d, -, h2⟩ := hv j c hj
    rw [hs.n]
    exact ⟨l', b, d, h2⟩

/-- **C49** With or without header: same number of elements and, in these, the same values. -/
theorem C49_same {V : CsvLib} (hV : CsvLaws V) (hm : ∀ c ∈ allocOrder .merged false, V.mem c = true)
    {hd : List Char} (hh : IsHeader hd) {rows : List (List (List Char))} (hT : IsTable 19 rows)
    (hcol : V.columnCount (hd ++ '\n' :: fileOf rows) = 19) (hB : ¬ startsWithB (fileOf rows)) :
    ∃ o o', csvExtract V .merged false true (some (fileOf rows)) = .ok o ∧
      csvExtract V .merged false true (some (hd ++ '\n' :: fileOf rows)) = .ok o' ∧
      o.err = none ∧ o'.err = none ∧ o.n = o'.n ∧
      ∀ c ∈ documentedOrder .merged false, ∃ l l', o.arr c = some l ∧ o'.arr c = some l' ∧
        l = l'.take o.n := by
  obtain ⟨o, e, a1, a2, -, a3⟩ := C41_roundtrip hV .merged false true hm hT (fun _ => hB) nofun
  obtain ⟨o', e', b1, b2, b3⟩ := C49_header hV hm hh hT hcol
  refine ⟨o, o', e, e', a1, b1, a2.trans b2.symm, fun c hc => ?_⟩
  obtain ⟨j, hj⟩ := List.getElem?_of_mem hc
  obtain ⟨l', x, -, z⟩ := b3 j c hj
  refine ⟨_, l', a3 j c hj, x, ?_⟩
  rw [a2, ← b2, z]

/-- One row of nineteen numbers. -/
def mergedRows : List (List (List Char)) :=
  [(List.range 19).map fun i => [Char.ofNat (49 + i % 9)]]

/-- A header with nineteen fields. -/
def mergedHead : List Char := joinComma (List.replicate 19 ['B'])

theorem mergedRows_table : IsTable 19 mergedRows where
  nonempty := by decide
  width := by decide
  fields := by unfold IsField; decide +kernel
  short := by decide +kernel

example : IsHeader mergedHead ∧ ¬ startsWithB (fileOf mergedRows) ∧
    demoLib.columnCount (mergedHead ++ '\n' :: fileOf mergedRows) = 19 := by
  refine ⟨⟨by decide +kernel, by decide +kernel, by decide +kernel⟩, ?_, by decide +kernel⟩
  unfold startsWithB
  decide +kernel

/-- **C49** corner case: a file with nothing but the header gives an object without error and without
elements (the readers of the other formats, and this one for an empty file, report an error). -/
theorem C49_header_only : ∃ o, csvExtract demoLib .merged false true (some (mergedHead ++ ['\n'])) = .ok o ∧
    o.err = none ∧ o.n = 0 := by
  obtain ⟨o, e, h⟩ := Res.of_test (x := csvExtract demoLib .merged false true
    (some (mergedHead ++ ['\n']))) (p := fun o => o.err == none && o.n == 0) (by decide +kernel)
  simp only [Bool.and_eq_true, beq_iff_eq] at h
  exact ⟨o, e, h⟩

/-! ### C50 -/

theorem scaleAt_ok (V : CsvLib) {o : Csv} {c : Col} {l : List Dbl} {n : Nat} {v : Dbl}
    (h : o.arr c = some l) (hv : l[n]? = some v) :
    scaleAt V o c n = .ok
      { o with arr := fun c' => if c' = c then some (l.set n (V.mul v degPerRad)) else o.arr c' } := by
  have hn : n < l.length := (List.getElem?_eq_some_iff.1 hv).1
  unfold scaleAt
  rw [h, rdP, rd_eq_ok.2 hv, Res.ok_bind, set_ok h hn]

/-- The object with new arrays of angles. -/
def put4 (o : Csv) (l1 l2 l3 l4 : List Dbl) : Csv :=
  { o with
    arr := fun c =>
      if c = .B then some l4
      else if c = .phase then some l3
      else if c = .phi then some l2
      else if c = .phiRl then some l1
      else o.arr c }

/-- Rows `n ..` of the angle columns scaled, the rest unchanged. -/
theorem scaleRows_ok (V : CsvLib) : ∀ (cnt n : Nat) (o : Csv), Sized o angleCols (n + cnt) →
    ∃ o', scaleRows V n cnt o = .ok o' ∧ SameButArr o o' ∧
      (∀ c ∈ angleCols, ∃ l, o.arr c = some l ∧
        o'.arr c = some (l.take n ++ (l.drop n).map fun v => V.mul v degPerRad)) ∧
      ∀ c, c ∉ angleCols → o'.arr c = o.arr c := by
  intro cnt
  induction cnt with
  | zero =>
    intro n o hS
    refine ⟨o, rfl, SameButArr.refl o, fun c hc => ?_, fun _ _ => rfl⟩
    obtain ⟨l, e, hl⟩ := hS c hc
    refine ⟨l, e, ?_⟩
    rw [e, List.drop_of_length_le (by omega), List.take_of_length_le (by omega)]
    simp
  | succ cnt ih =>
    intro n o hS
    obtain ⟨l1, a1, b1⟩ := hS .phiRl (by decide)
    obtain ⟨l2, a2, b2⟩ := hS .phi (by decide)
    obtain ⟨l3, a3, b3⟩ := hS .phase (by decide)
    obtain ⟨l4, a4, b4⟩ := hS .B (by decide)
    have g : ∀ l : List Dbl, l.length = n + (cnt + 1) → ∃ v, l[n]? = some v := fun l hl =>
      ⟨l[n]'(by omega), List.getElem?_eq_getElem _⟩
    obtain ⟨v1, c1⟩ := g l1 b1
    obtain ⟨v2, c2⟩ := g l2 b2
    obtain ⟨v3, c3⟩ := g l3 b3
    obtain ⟨v4, c4⟩ := g l4 b4
    rw [scaleRows, scaleAt_ok V a1 c1, Res.ok_bind]
    rw [scaleAt_ok V (l := l2) (v := v2) (by simpa using a2) c2, Res.ok_bind]
    rw [scaleAt_ok V (l := l3) (v := v3) (by simpa using a3) c3, Res.ok_bind]
    rw [scaleAt_ok V (l := l4) (v := v4) (by simpa using a4) c4, Res.ok_bind]
    obtain ⟨o4, ho4⟩ : ∃ o4 : Csv, o4 = put4 o (l1.set n (V.mul v1 degPerRad))
      (l2.set n (V.mul v2 degPerRad)) (l3.set n (V.mul v3 degPerRad))
      (l4.set n (V.mul v4 degPerRad)) := ⟨_, rfl⟩
    obtain ⟨o', e, hs, h1, h2⟩ := ih (n + 1) o4 (by
      intro c hc
      simp only [angleCols, List.mem_cons, List.not_mem_nil, or_false] at hc
      rcases hc with rfl | rfl | rfl | rfl
      · exact ⟨l1.set n (V.mul v1 degPerRad), by simp [ho4, put4], by simp; omega⟩
      · exact ⟨l2.set n (V.mul v2 degPerRad), by simp [ho4, put4], by simp; omega⟩
      · exact ⟨l3.set n (V.mul v3 degPerRad), by simp [ho4, put4], by simp; omega⟩
      · exact ⟨l4.set n (V.mul v4 degPerRad), by simp [ho4, put4], by simp; omega⟩)
    have step : ∀ (l : List Dbl) (v : Dbl), l[n]? = some v →
        (l.set n (V.mul v degPerRad)).take (n + 1) ++
          ((l.set n (V.mul v degPerRad)).drop (n + 1)).map (fun v => V.mul v degPerRad) =
        l.take n ++ (l.drop n).map (fun v => V.mul v degPerRad) := by
      intro l v hv
      have hn : n < l.length := (List.getElem?_eq_some_iff.1 hv).1
      have hv' : l[n] = v := (List.getElem?_eq_some_iff.1 hv).2
      have hm : min n l.length = n := by omega
      rw [List.set_eq_take_append_cons_drop, if_pos hn, List.drop_eq_getElem_cons hn, hv',
        List.take_append, List.drop_append, List.length_take, hm]
      have h1 : n + 1 - n = 1 := by omega
      rw [h1, List.take_of_length_le (l := List.take n l) (by rw [List.length_take]; omega),
        List.drop_of_length_le (l := List.take n l) (by rw [List.length_take]; omega)]
      simp
    refine ⟨o', by rw [ho4] at e; exact e, (by subst ho4; exact ⟨rfl, rfl, rfl, rfl⟩ : SameButArr o o4).trans hs, fun c hc => ?_, fun c hc => ?_⟩
    · obtain ⟨l, x, y⟩ := h1 c hc
      simp only [angleCols, List.mem_cons, List.not_mem_nil, or_false] at hc
      rcases hc with rfl | rfl | rfl | rfl
      · refine ⟨l1, a1, ?_⟩
        have : l = l1.set n (V.mul v1 degPerRad) := by simpa [ho4, put4] using x.symm
        rw [y, this, step l1 v1 c1]
      · refine ⟨l2, a2, ?_⟩
        have : l = l2.set n (V.mul v2 degPerRad) := by simpa [ho4, put4] using x.symm
        rw [y, this, step l2 v2 c2]
      · refine ⟨l3, a3, ?_⟩
        have : l = l3.set n (V.mul v3 degPerRad) := by simpa [ho4, put4] using x.symm
        rw [y, this, step l3 v3 c3]
      · refine ⟨l4, a4, ?_⟩
        have : l = l4.set n (V.mul v4 degPerRad) := by simpa [ho4, put4] using x.symm
        rw [y, this, step l4 v4 c4]
    · rw [h2 c hc]
      simp only [angleCols, List.mem_cons, List.not_mem_nil, or_false, not_or] at hc
      simp [ho4, put4, hc]

/-- **C50** A Uranus file in radians: the four angle columns are the numbers of the file multiplied
once by the constant 57.29577951308232 (180/pi), the other columns are the numbers of the file, and
the flag is cleared. -/
theorem C50_radians {V : CsvLib} (hV : CsvLaws V) (hm : ∀ c ∈ allocOrder .uranus false, V.mem c = true)
    {rows : List (List (List Char))} (hT : IsTable 17 rows) :
    ∃ o, csvExtract V .uranus false true (some (fileOf rows)) = .ok o ∧ o.err = none ∧
      o.n = rows.length ∧ o.radians = false ∧
      ∀ (j : Nat) (c : Col), (documentedOrder .uranus false)[j]? = some c →
        o.arr c = some (rows.map fun row =>
          if c = .phiRl ∨ c = .phi ∨ c = .phase ∨ c = .B then V.mul (V.atof (row.getD j [])) degPerRad
          else V.atof (row.getD j [])) := by
  obtain ⟨c1, c2⟩ := fileOf_count hT
  have hlc := hV.lineCount (fileOf rows) (.inr c2)
  rw [c1] at hlc
  have hne : rows.length ≠ 0 := by simpa using hT.nonempty
  have hcol : V.columnCount (fileOf rows) = 17 := by
    obtain ⟨row, rest, rfl⟩ := List.exists_cons_of_ne_nil hT.nonempty
    have hrl := hT.width row (by simp)
    have := hV.columnCount row (fileOf rest) (fun h => by rw [h] at hrl; simp at hrl)
      (hT.fields row (by simp))
    rw [hrl] at this
    rwa [fileOf, List.flatMap_cons]
  obtain ⟨o, hA, e⟩ := extract_eq (k := .uranus) (dep := false) (radians := true) hcol (by omega) hm
  rw [hlc] at hA
  obtain ⟨o1, e1, hs1, hv1⟩ := table_stored hV (k := .uranus) (dep := false) hT.width hT.fields hA.sized
    (le_refl _)
  have hfull : ∀ (j : Nat) (c : Col), (documentedOrder .uranus false)[j]? = some c →
      o1.arr c = some (rows.map fun row => V.atof (row.getD j [])) := fun j c hj => by
    obtain ⟨l, l', -, b, d, -, h2⟩ := hv1 j c hj
    rw [b, ← h2, List.take_of_length_le (by omega)]
  have hsz : Sized o1 angleCols (0 + o1.n) := fun c hc => by
    have hc' : c ∈ documentedOrder .uranus false := by
      revert hc; revert c; decide
    obtain ⟨j, hj⟩ := List.getElem?_of_mem hc'
    exact ⟨_, hfull j c hj, by simp [hs1.n, hA.hn]⟩
  obtain ⟨o2, e2, hs2, h1, h2⟩ := scaleRows_ok V o1.n 0 o1 hsz
  refine ⟨{ o2 with radians := false }, ?_, (hs2.err.trans hs1.err).trans hA.err,
    (hs2.n.trans hs1.n).trans hA.hn, rfl, fun j c hj => ?_⟩
  · rw [e]
    unfold readData
    rw [hA.err]
    simp only [Option.isSome_none, Bool.false_eq_true, if_false, hA.hn, hne, hA.hdep, lines_fileOf hT,
      e1, Res.ok_bind, toDegrees, hs1.radians, hA.hrad, if_true, e2]
  · show o2.arr c = _
    by_cases hc : c ∈ angleCols
    · obtain ⟨l, x, y⟩ := h1 c hc
      rw [hfull j c hj] at x; cases x
      rw [y]
      have hc' : c = .phiRl ∨ c = .phi ∨ c = .phase ∨ c = .B := by
        simpa [angleCols] using hc
      simp [hc']
    · rw [h2 c hc, hfull j c hj]
      have hc' : ¬ (c = .phiRl ∨ c = .phi ∨ c = .phase ∨ c = .B) := by
        simpa [angleCols] using hc
      simp [hc']

/-- **C50** A Uranus file in degrees: all columns are the numbers of the file. -/
theorem C50_degrees {V : CsvLib} (hV : CsvLaws V) (hm : ∀ c ∈ allocOrder .uranus false, V.mem c = true)
    {rows : List (List (List Char))} (hT : IsTable 17 rows) :
    ∃ o, csvExtract V .uranus false false (some (fileOf rows)) = .ok o ∧ o.err = none ∧
      o.n = rows.length ∧ o.radians = false ∧
      ∀ (j : Nat) (c : Col), (documentedOrder .uranus false)[j]? = some c →
        o.arr c = some (rows.map fun row => V.atof (row.getD j [])) :=
  C41_roundtrip hV .uranus false false hm hT nofun (fun _ => rfl)

/-- A table that meets the hypotheses of C50. -/
def uranusRows : List (List (List Char)) := [(List.range 17).map fun i => [Char.ofNat (49 + i % 9)],
  (List.range 17).map fun _ => ['2']]

theorem uranusRows_table : IsTable 17 uranusRows where
  nonempty := by decide
  width := by decide
  fields := by unfold IsField; decide +kernel
  short := by decide +kernel

example : ∃ o, csvExtract demoLib .uranus false true (some (fileOf uranusRows)) = .ok o ∧
    o.arr .phi = some [demoLib.mul (.fin 5) degPerRad, demoLib.mul (.fin 2) degPerRad] := by
  obtain ⟨o, e, -, -, -, h⟩ := C50_radians demoLib_laws (fun _ _ => rfl) uranusRows_table
  exact ⟨o, e, (h 4 .phi rfl).trans (by decide +kernel)⟩

end Verif
