import Verif.Model.SnrRow
import Verif.Props.C144
import Verif.Props.C145

/-!
# The tabulated signal-to-noise ratio (C214, C215) and the kernels of all events (C216, C217)
-/
namespace Verif.Pick
open Verif.Rsr Verif.Out Verif.Pds Verif.Rev

namespace Spec

/-- A row of the file: the name and the ratio. -/
def row (r : List Char × List Char) : List Char := r.1 ++ ',' :: ' ' :: r.2

/-- A file of ratios: names without commas, and the name `f` is only in the rows that are its own. -/
structure Ratios (header : List Char) (rows : List (List Char × List Char)) (f : List Char) : Prop where
  header : ¬ f <:+: header
  comma : ∀ r ∈ rows, ',' ∉ r.1
  own : ∀ r ∈ rows, f <:+: row r → r.1 = f

/-- A line of the list of kernels: with the name of a spacecraft kernel, or without any. -/
inductive KerLine where
  | kernel (pre name rest : List Char)
  | other (text : List Char)

def KerLine.text : KerLine → List Char
  | .kernel pre name rest => pre ++ ("$A/".toList ++ (name ++ rest))
  | .other t => t

def KerLine.name : KerLine → Option (List Char)
  | .kernel _ name _ => some name
  | .other _ => none

/-- Names as `050623R_SCPSE_05132_05150.bsp`. -/
def KerLine.Good : KerLine → Prop
  | .kernel pre name _ => '$' ∉ pre ∧ name.length = 29 ∧ "SCPSE".toList <:+: name
  | .other t => ¬ "SCPSE".toList <:+: t

end Spec
open Verif.Pick.Spec

theorem index_comma {a r : List Char} (h : ',' ∉ a) : index [','] (a ++ ',' :: r) = .ok a.length := by
  apply index_at (by decide)
  · rw [List.drop_left]
    exact ⟨r, rfl⟩
  · intro j hj ⟨t, ht⟩
    rw [List.drop_append_of_le_length (by omega)] at ht
    cases hd : a.drop j with
    | nil =>
      have := congrArg List.length hd
      simp only [List.length_drop, List.length_nil] at this
      omega
    | cons x u =>
      rw [hd] at ht
      have : x = ',' := (List.cons.inj ht).1.symm
      exact h (this ▸ List.mem_of_mem_drop (i := j) (by rw [hd]; simp))

theorem find_row {header f : List Char} {rows : List (List Char × List Char)} (h : Ratios header rows f) :
    (header :: rows.map row).find? (fun l => decide (f <:+: l)) = (rows.find? fun r => decide (r.1 = f)).map row := by
  rw [List.find?_cons_of_neg (by simpa using h.header), List.find?_map]
  congr 1
  have ho := h.own
  clear h
  induction rows with
  | nil => rfl
  | cons r rs ih =>
    rw [List.find?_cons, List.find?_cons]
    have e : (decide (f <:+: row r)) = decide (r.1 = f) := by
      rw [decide_eq_decide]
      exact ⟨ho r (by simp), fun e => e ▸ ⟨[], ',' :: ' ' :: r.2, by simp [row]⟩⟩
    simp only [Function.comp_apply, e]
    split
    · rfl
    · exact ih fun s hs => ho s (by simp [hs])

/-- The ratio is the one of the first row that has the name of the chosen file. -/
theorem C214_value {R : Type} {flt : List Char → Option R} {nan x : R} {t : Tables} {k16 : Bool} {rev dsn f v header : List Char} {dir : Char}
    {rows : List (List Char × List Char)} (hp : pickRsr t true rev dir dsn = .ok (some f)) (h : Ratios header rows f)
    (hr : rows.find? (fun r => decide (r.1 = f)) = some (f, v)) (hx : flt (' ' :: v) = some x) :
    dbhz flt nan t (header :: rows.map row) k16 rev dir dsn = .ok x := by
  have hc := h.comma _ (List.mem_of_find?_eq_some hr)
  simp only [dbhz, hp, bind, Except.bind, find_row h, hr, Option.map_some, rowValue, row, index_comma hc]
  rw [show f ++ ',' :: ' ' :: v = (f ++ [',']) ++ ' ' :: v by simp, List.drop_left' (by simp), hx]
  rfl

/-- A file without a row has no ratio: `nan`. -/
theorem C214_none {R : Type} {flt : List Char → Option R} {nan : R} {t : Tables} {k16 : Bool} {rev dsn f header : List Char} {dir : Char}
    {rows : List (List Char × List Char)} (hp : pickRsr t true rev dir dsn = .ok (some f)) (h : Ratios header rows f)
    (hr : ∀ r ∈ rows, r.1 ≠ f) : dbhz flt nan t (header :: rows.map row) k16 rev dir dsn = .ok nan := by
  have : rows.find? (fun r => decide (r.1 = f)) = none := by simpa using hr
  simp only [dbhz, hp, bind, Except.bind, find_row h, this, Option.map_none, pure, Except.pure]

/-- An event that has no file gives no ratio but the exception of the search, or a `TypeError`. -/
theorem C214_event {R : Type} {flt : List Char → Option R} {nan : R} {t : Tables} {k16 : Bool} {rev dsn l : List Char} {dir : Char} {lines : List (List Char)}
    (hp : ∀ f, pickRsr t true rev dir dsn ≠ .ok (some f)) : ∃ e, dbhz flt nan t (l :: lines) k16 rev dir dsn = .error e := by
  cases h : pickRsr t true rev dir dsn with
  | error e => exact ⟨e, by simp only [dbhz, h, bind, Except.bind]⟩
  | ok o =>
    cases o with
    | some f => exact absurd h (hp f)
    | none => exact ⟨.type, by simp only [dbhz, h, bind, Except.bind]; rfl⟩

/-- Texts of ratios for the examples: only their lengths. -/
def textLen (s : List Char) : Option Nat := some s.length

def demoRows : List (List Char × List Char) :=
  [("co-s-rss-1-sroc1-v10/cors_0727/SROC1_123/RSR/S10SROI2005123_0230NNNX43RD.2A1".toList, "47".toList),
   ("co-s-rss-1-sroc1-v10/cors_0108/sroc1_123/rsr/s10sroi2005123_0230nnnx43rd.2a2".toList, "50.25".toList)]

/-- The lines of the tables for Rev007 ingress, with a file of 1 kHz and one of 16 kHz. -/
def demo2 : Tables := ⟨demo.khz16, ["co-s-rss-1-sroc1-v10/cors_0727/SROC1_123/RSR/S10SROI2005123_0230NNNX43RD.2A1".toList], demo.corss⟩

theorem demoRows_ratios : Ratios "rsr_filename,snr0 (dBHz)".toList demoRows "co-s-rss-1-sroc1-v10/cors_0108/sroc1_123/rsr/s10sroi2005123_0230nnnx43rd.2a2".toList :=
  ⟨by decide +kernel, by decide +kernel, by decide +kernel⟩

example : dbhz textLen 0 demo2 ("rsr_filename,snr0 (dBHz)".toList :: demoRows.map row) true "Rev007".toList 'I' "X43".toList = .ok 6 :=
  C214_value (f := "co-s-rss-1-sroc1-v10/cors_0108/sroc1_123/rsr/s10sroi2005123_0230nnnx43rd.2a2".toList) (v := "50.25".toList)
    (by decide +kernel) demoRows_ratios (by decide +kernel) rfl

example : dbhz textLen 0 demo2 ("rsr_filename,snr0 (dBHz)".toList :: (demoRows.take 1).map row) true "Rev007".toList 'I' "X43".toList = .ok 0 :=
  C214_none (f := "co-s-rss-1-sroc1-v10/cors_0108/sroc1_123/rsr/s10sroi2005123_0230nnnx43rd.2a2".toList)
    (by decide +kernel) ⟨by decide +kernel, by decide +kernel, by decide +kernel⟩ (by decide +kernel)

example : ∃ e, dbhz textLen 0 demo2 ("rsr_filename,snr0 (dBHz)".toList :: demoRows.map row) true "Rev008".toList 'E' "X63".toList = .error e :=
  C214_event fun f hf => by
    rw [show pickRsr demo2 true "Rev008".toList 'E' "X63".toList = .error .value by decide +kernel] at hf
    cases hf

/-! ### The rate -/

/-- When both rates have the same file, the ratio is that of the file that `pick_RSR_file` gives for the rate.  (Full claim: for every event; see
`C215_rate_false`.) -/
theorem C215_rate_partial {R : Type} {flt : List Char → Option R} {nan x : R} {t : Tables} {k16 : Bool} {rev dsn f v header : List Char} {dir : Char}
    {rows : List (List Char × List Char)} (hp : pickRsr t k16 rev dir dsn = .ok (some f)) (hsame : pickRsr t true rev dir dsn = pickRsr t k16 rev dir dsn)
    (h : Ratios header rows f) (hr : rows.find? (fun r => decide (r.1 = f)) = some (f, v)) (hx : flt (' ' :: v) = some x) :
    dbhz flt nan t (header :: rows.map row) k16 rev dir dsn = .ok x := C214_value (hsame.trans hp) h hr hx

example : dbhz textLen 0 demo ("rsr_filename,snr0 (dBHz)".toList :: demoRows.map row) false "Rev007".toList 'I' "X43".toList = .ok 6 :=
  C215_rate_partial (f := "co-s-rss-1-sroc1-v10/cors_0108/sroc1_123/rsr/s10sroi2005123_0230nnnx43rd.2a2".toList) (v := "50.25".toList)
    (by decide +kernel) (by decide +kernel) demoRows_ratios (by decide +kernel) rfl

/-- With `_16kHz=False` the ratio is still that of the file of 16 kHz, although `pick_RSR_file` gives the one of 1 kHz, which has a row of its own. -/
theorem C215_rate_false :
    pickRsr demo2 false "Rev007".toList 'I' "X43".toList = .ok (some "co-s-rss-1-sroc1-v10/cors_0727/SROC1_123/RSR/S10SROI2005123_0230NNNX43RD.2A1".toList) ∧
    demoRows.find? (fun r => decide (r.1 = "co-s-rss-1-sroc1-v10/cors_0727/SROC1_123/RSR/S10SROI2005123_0230NNNX43RD.2A1".toList)) =
      some ("co-s-rss-1-sroc1-v10/cors_0727/SROC1_123/RSR/S10SROI2005123_0230NNNX43RD.2A1".toList, "47".toList) ∧
    textLen (' ' :: "47".toList) = some 3 ∧
    dbhz textLen 0 demo2 ("rsr_filename,snr0 (dBHz)".toList :: demoRows.map row) false "Rev007".toList 'I' "X43".toList = .ok 6 :=
  ⟨by decide +kernel, by decide +kernel, rfl, by decide +kernel⟩

/-! ### Kernels -/

theorem infix_index {q s : List Char} (h : q <:+: s) : ∃ i, index q s = .ok i := by
  obtain ⟨a, b, rfl⟩ := h
  induction a with
  | nil =>
    cases q with
    | nil => cases b <;> exact ⟨0, by simp [index]⟩
    | cons c q => exact ⟨0, by simp [index]⟩
  | cons c a ih =>
    obtain ⟨i, hi⟩ := ih
    simp only [List.cons_append, index]
    split
    · exact ⟨0, rfl⟩
    · simp only [List.append_assoc] at hi ⊢
      rw [hi]
      exact ⟨i + 1, rfl⟩

theorem scKernel_line {l : KerLine} (h : l.Good) : scKernel l.text = l.name := by
  cases l with
  | kernel pre name rest =>
    obtain ⟨h1, h2, h3⟩ := h
    have h4 : "SCPSE".toList <:+: KerLine.text (.kernel pre name rest) := by
      obtain ⟨a, b, e⟩ := h3
      exact ⟨pre ++ ("$A/".toList ++ a), b ++ rest, by simp only [KerLine.text, ← e, List.append_assoc]⟩
    obtain ⟨i, hi⟩ := infix_index h4
    simp only [scKernel, hi, bind, Except.bind, KerLine.text] at *
    rw [index_dollar h1]
    simp only [pure, Except.pure, slice, KerLine.name]
    rw [show pre ++ ("$A/".toList ++ (name ++ rest)) = (pre ++ "$A/".toList) ++ (name ++ rest) by simp, List.drop_left' (by simp),
      show pre.length + 32 - (pre.length + 3) = 29 by omega, List.take_left' h2]
  | other t =>
    simp only [scKernel, KerLine.text, index_error (show "SCPSE".toList ≠ [] by decide) h, bind, Except.bind, KerLine.name]

/-- All kernels of a list with one in a line are asked for, in this order, and nothing else. -/
theorem C216_kernels {ls : List KerLine} (h : ∀ l ∈ ls, l.Good) :
    scKernels (ls.map KerLine.text) = (ls.filterMap KerLine.name).map fun k => "naif/CASSINI/kernels/spk/".toList ++ k := by
  rw [scKernels, List.filterMap_map]
  congr 1
  exact List.filterMap_congr fun l hl => scKernel_line (h l hl)

example : scKernels ["KERNELS_TO_LOAD = (\t\t'$A/050606R_SCPSE_05114_05132.bsp' ".toList, "\t'$B/naif0012.tls'".toList, "\t'$A/050623R_SCPSE_05132_05150.bsp'".toList] =
    ["naif/CASSINI/kernels/spk/050606R_SCPSE_05114_05132.bsp".toList, "naif/CASSINI/kernels/spk/050623R_SCPSE_05132_05150.bsp".toList] := by
  have := C216_kernels (ls := [.kernel "KERNELS_TO_LOAD = (\t\t'".toList "050606R_SCPSE_05114_05132.bsp".toList "' ".toList, .other "\t'$B/naif0012.tls'".toList,
    .kernel "\t'".toList "050623R_SCPSE_05132_05150.bsp".toList "'".toList])
    (by
      intro l hl
      simp only [List.mem_cons, List.not_mem_nil, or_false] at hl
      rcases hl with rfl | rfl | rfl
      · exact ⟨by decide +kernel, by decide +kernel, by decide +kernel⟩
      · show ¬ _
        decide +kernel
      · exact ⟨by decide +kernel, by decide +kernel, by decide +kernel⟩)
  refine Eq.trans ?_ (this.trans ?_) <;> decide +kernel

/-- What is asked for of a line stands in it after `$A/`, and is 29 characters long if the line is long enough.  (Full claim: every spacecraft kernel that the list names; see
`C217_all_false`.) -/
theorem C217_all_partial {line k : List Char} (h : scKernel line = some k) : "SCPSE".toList <:+: line ∧ "$A/".toList ++ k <:+: line ∧ k.length ≤ 29 := by
  have hs : "SCPSE".toList <:+: line := by
    by_contra hc
    simp only [scKernel, index_error (show "SCPSE".toList ≠ [] by decide) hc, bind, Except.bind] at h
    cases h
  obtain ⟨i, hi⟩ := infix_index hs
  simp only [scKernel, hi, bind, Except.bind] at h
  cases hj : index "$A/".toList line with
  | error e => rw [hj] at h; cases h
  | ok j =>
    rw [hj] at h
    simp only [pure, Except.pure, Option.some.injEq] at h
    obtain ⟨⟨t, ht⟩, -⟩ := index_sound hj
    have hk : line.drop (j + 3) = t := by
      rw [← List.drop_drop, ← ht]
      exact List.drop_left' rfl
    refine ⟨hs, ?_, ?_⟩
    · rw [← h, slice, hk]
      refine ⟨line.take j, t.drop (j + 32 - (j + 3)), ?_⟩
      rw [List.append_assoc, List.append_assoc, List.take_append_drop, ht, List.take_append_drop]
    · rw [← h, slice, List.length_take]
      omega

example : "SCPSE".toList <:+: "\t'$A/050623R_SCPSE_05132_05150.bsp'".toList ∧ "$A/".toList ++ "050623R_SCPSE_05132_05150.bsp".toList <:+: "\t'$A/050623R_SCPSE_05132_05150.bsp'".toList ∧
    "050623R_SCPSE_05132_05150.bsp".toList.length ≤ 29 := C217_all_partial (by decide +kernel)

/-- The second kernel of a line is not asked for, and the end of a longer name is cut off. -/
theorem C217_all_false :
    scKernels ["'$A/050606R_SCPSE_05114_05132.bsp', '$A/050623R_SCPSE_05132_05150.bsp'".toList] = ["naif/CASSINI/kernels/spk/050606R_SCPSE_05114_05132.bsp".toList] ∧
    scKernels ["'$A/050606RB_SCPSE_05114_05132.bsp'".toList] = ["naif/CASSINI/kernels/spk/050606RB_SCPSE_05114_05132.bs".toList] := by decide +kernel

end Verif.Pick
