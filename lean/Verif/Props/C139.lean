import Verif.Model.RsrHeader
import Verif.Props.C70

/-!
# C139: `rsr_header` and `RSRReader` agree about a file
-/
namespace Verif.RsrHeader
open Verif.Rsr Verif.Rsr.Spec

/-- The dictionary in terms of the bytes at their offsets. -/
theorem rsrHeader_eq {rnd : ℚ → ℚ} (h : Ieee rnd) (f : List Byte) (hf : 260 ≤ f.length)
    (hb : 0 < numAt f 68 1) (hr : 0 < numAt f 70 2) (s : ℚ) (hs : dblOfBits (numAt f 80 8) = .fin s) :
    rsrHeader true rnd f = .ok
      { spm := arange rnd s (rnd (1 / (numAt f 70 2 * 1000))) (points rnd s (rnd (1 / (numAt f 70 2 * 1000)))
          (rnd (((4 * numAt f 258 2 / numAt f 68 1 : ℕ) : ℚ) * rnd (f.length / ((numAt f 12 8 + 20 : ℕ) : ℚ)))))
        doy := if numAt f 62 2 = 0 then numAt f 78 2 else numAt f 62 2
        year := if numAt f 60 2 = 0 then numAt f 76 2 else numAt f 60 2
        dsn := numAt f 43 1, band := some (.bytes [f.getD 51 0]), rate := numAt f 70 2 } := by
  have bl := numAt_lt f 258 2
  have bb := numAt_lt f 68 1
  have br := numAt_lt f 70 2
  norm_num at bl bb br
  obtain ⟨dt, d0, e, -, -⟩ := sampleDt_ok h (numAt f 70 2) hr (by omega)
  have I := fun name o n sg he => intField_of (int_at [] f hf name o n sg he)
  have i1 := I "sfdu_length" 12 8 false (by decide +kernel)
  have i2 := I "sh_bits_per_sample" 68 1 false (by decide +kernel)
  have i3 := I "Data_length" 258 2 false (by decide +kernel)
  have i4 := I "sh_sample_rate" 70 2 false (by decide +kernel)
  have i5 := I "sh_year" 60 2 false (by decide +kernel)
  have i6 := I "sh_doy" 62 2 false (by decide +kernel)
  have i7 := I "sh_sfdu_year" 76 2 false (by decide +kernel)
  have i8 := I "sh_sfdu_doy" 78 2 false (by decide +kernel)
  have i9 := I "sh_dss_id" 43 1 false (by decide +kernel)
  have d3 := dblField_of (dbl_at [] f hf "sh_sfdu_seconds" 80 (by decide +kernel))
  have c1 := chr_at [] f hf "sh_dl_band" 51 (by decide +kernel)
  rw [hs] at d3
  simp only [Bool.false_eq_true, if_false] at i1 i2 i3 i4 i5 i6 i7 i8 i9
  have l1 : ∀ a : ℕ, ((a : ℤ) + 20).toNat = a + 20 := by intro a; omega
  unfold rsrHeader
  rw [hdr_unpack f hf]
  simp only [i1, i2, i3, i4, i5, i6, i7, i8, i9, d3, c1, Int.toNat_natCast, l1,
    nPer_ok h _ _ hb (by omega) (by omega : numAt f 258 2 ≤ 65535), e, Bool.not_true, Bool.false_eq_true, if_false, d0]
  norm_cast

/-- **C139** (partial) For every file that consists of whole blocks, of at most 2³⁴ bytes, and whatever IEEE rounding does:
if the class reads the header, then so does the function (with a NumPy that still has `np.int`), and times, day, year, station and
sample rate are the same; the band is the same letter, as `bytes`.  Missing: files that end within a block, see `C139_tail_false`. -/
theorem C139_same_partial {rnd : ℚ → ℚ} (h : Ieee rnd) (ul : Option Int) (f : List Byte) (hd : Hdr) (hf : 260 ≤ f.length)
    (hsize : f.length ≤ 2 ^ 34) (hb : 0 < numAt f 68 1) (hr : 0 < numAt f 70 2) (s : ℚ)
    (hs : dblOfBits (numAt f 80 8) = .fin s) (hw : numAt f 12 8 + 20 ∣ f.length) (e : readHdr rnd ul f = .ok hd) :
    ∃ r, rsrHeader true rnd f = .ok r ∧ r.spm = hd.spm ∧ r.doy = hd.doy ∧ r.year = hd.year ∧ r.dsn = hd.dsn ∧
      r.rate = hd.rate ∧ ∃ b : Byte, r.band = some (.bytes [b]) ∧ b.val = hd.band := by
  obtain ⟨dt, d0, -, -, e'⟩ := readHdr_eq h ul f hf hb hr s hs
  rw [e] at e'
  cases e'
  refine ⟨_, rsrHeader_eq h f hf hb hr s hs, ?_, rfl, rfl, rfl, rfl, _, rfl, rfl⟩
  obtain ⟨m, hm⟩ := hw
  have hp : 0 < numAt f 12 8 + 20 := by omega
  have hm' : m ≤ f.length := by rw [hm]; exact Nat.le_mul_of_pos_left m hp
  have q : (f.length : ℚ) / ((numAt f 12 8 + 20 : ℕ) : ℚ) = (m : ℚ) := by
    rw [hm]; push_cast
    have : ((numAt f 12 8 : ℚ) + 20) ≠ 0 := by positivity
    field_simp
  have q1 : rnd (m : ℚ) = m := by
    have := h.exact m 0 (by rw [abs_of_nonneg (by positivity)]; norm_cast; omega) (by norm_num)
    simpa using this
  have q2 : nSfdu rnd f.length (numAt f 12 8 + 20) = m := by
    unfold nSfdu
    rw [q, q1, pyInt, if_pos (by positivity), Int.floor_natCast]
    rfl
  have bl : numAt f 258 2 < 65536 := numAt_lt f 258 2
  have hper : 4 * numAt f 258 2 / numAt f 68 1 ≤ 2 ^ 18 := (Nat.div_le_self _ _).trans (by omega)
  set per := 4 * numAt f 258 2 / numAt f 68 1 with hp'
  have hpm : per * m ≤ 2 ^ 53 := by
    calc per * m ≤ 2 ^ 18 * 2 ^ 34 := Nat.mul_le_mul hper (hm'.trans hsize)
      _ ≤ 2 ^ 53 := by norm_num
  have q3 : rnd ((per : ℚ) * m) = ((per * m : ℕ) : ℚ) := by
    have := h.exact (per * m : ℕ) 0 (by rw [abs_of_nonneg (by positivity)]; exact_mod_cast hpm) (by norm_num)
    simpa using this
  simp only [q, q1, q2, q3, ← d0]
  rfl

/-- A file of two whole blocks. -/
def wholeFile : List Byte := fileOf (demoBlocks 16) []

example : ∃ r, rsrHeader true id wholeFile = .ok r ∧ r.year = 2005 ∧ r.rate = 16 := by
  have k : dblOfBits (numAt wholeFile 80 8) = .fin 100 := by decide +kernel
  obtain ⟨dt, -, -, -, e⟩ := readHdr_eq ieee_id none wholeFile (by decide +kernel) (by decide +kernel) (by decide +kernel) 100 k
  obtain ⟨r, e1, -, -, h3, -, h5, -⟩ := C139_same_partial ieee_id none wholeFile _ (by decide +kernel) (by decide +kernel)
    (by decide +kernel) (by decide +kernel) 100 k (by decide +kernel) e
  have k1 : numAt wholeFile 60 2 = 2005 := by decide +kernel
  have k2 : numAt wholeFile 70 2 = 16 := by decide +kernel
  refine ⟨r, e1, h3.trans ?_, h5.trans ?_⟩
  · simp only [k1]; decide
  · simp only [k2]

/-- **C139** Files that the class refuses to read, the function refuses with the same exception. -/
theorem C139_errors (rnd : ℚ → ℚ) (ul : Option Int) (f : List Byte) (x : Exn) :
    readHdr rnd ul f = .error x ↔ rsrHeader true rnd f = .error x := by
  unfold readHdr rsrHeader
  cases h1 : unpackFrom hdrFmt (f.take (calcsize hdrFmt)) with
  | error e => simp [bind, Except.bind]
  | ok v =>
    simp only [bind, Except.bind, Bool.not_true, Bool.false_eq_true, if_false]
    cases h2 : nPer rnd (intField v "sh_bits_per_sample").toNat (intField v "Data_length").toNat with
    | error e => simp
    | ok per =>
      simp only
      cases h3 : sampleDt rnd (intField v "sh_sample_rate").toNat with
      | error e => simp
      | ok dt =>
        simp only
        cases h4 : dblField v "sh_sfdu_seconds" <;> simp

example : rsrHeader true id [1, 2, 3] = .error .struct := by
  refine (C139_errors id none _ _).1 ?_
  unfold readHdr unpackFrom
  rw [calcsize_hdr, if_pos (by decide)]
  rfl

/-- The number of points in exact arithmetic. -/
theorem points_id (s dt x : ℚ) (hd : dt ≠ 0) : points id s dt x = (pyRound x).toNat := by
  unfold points
  simp only [id, add_sub_cancel_left, mul_div_cancel_right₀ x hd]

/-- **C139** In a well-formed file that ends within a block, and with exact arithmetic: if less than half a sample of the
remainder counts (`2 n r < b` for `n` samples and `b` bytes per block and `r` bytes too many), the function returns as many times as
there are samples; if more, it returns more times than there are samples. -/
theorem C139_tail {n : Nat} {l : List Block} {rest : List Byte} (w : WellFormed n l rest) {rate : Nat} {s : ℚ}
    (t : Timed l rest n rate s) (hr : 0 < rate) :
    ∃ r, rsrHeader true id (fileOf l rest) = .ok r ∧
      (2 * (n * rest.length) < 260 + 4 * n → r.spm.length = (samples l).length) ∧
      (260 + 4 * n < 2 * (n * rest.length) → (samples l).length < r.spm.length) := by
  have hflat : ∀ l : List Block, (∀ b ∈ l, b.hdr.length = 260) → (∀ b ∈ l, b.data.length = n) →
      (l.flatMap Block.bytes).length = l.length * (260 + 4 * n) := by
    intro l
    induction l with
    | nil => intro _ _; simp
    | cons b l ih =>
      intro h1 h2
      have k : ∀ d : List (Int × Int), (d.flatMap fun p => word p.2 ++ word p.1).length = 4 * d.length := by
        intro d
        induction d with
        | nil => rfl
        | cons p d ih => rw [List.flatMap_cons, List.length_append, ih]; simp [word]; omega
      rw [List.flatMap_cons, List.length_append, ih (fun b hb => h1 b (List.mem_cons_of_mem _ hb))
        (fun b hb => h2 b (List.mem_cons_of_mem _ hb)), Block.bytes, List.length_append, k, h1 b List.mem_cons_self,
        h2 b List.mem_cons_self, List.length_cons]
      ring
  have hlen : (fileOf l rest).length = l.length * (260 + 4 * n) + rest.length := by
    rw [fileOf, List.length_append, hflat l w.hdr w.data]
  have hl : 1 ≤ l.length := List.length_pos_iff.2 w.some
  have h260 : 260 ≤ (fileOf l rest).length := by rw [hlen]; nlinarith
  refine ⟨_, rsrHeader_eq ieee_id (fileOf l rest) h260 (by rw [w.bits]; norm_num) (by rw [t.hrate]; exact hr) s t.start, ?_⟩
  have hn : 4 * numAt (fileOf l rest) 258 2 / numAt (fileOf l rest) 68 1 = n := by rw [w.bytes, w.bits]; omega
  have hrq : (0 : ℚ) < rate := by exact_mod_cast hr
  have hnq : (0 : ℚ) < n := by exact_mod_cast w.pos
  simp only [arange_length, samples_length w, hn, w.length, hlen, id, t.hrate]
  have hdt : (1 : ℚ) / (rate * 1000) ≠ 0 := by positivity
  have P := points_id s (1 / (rate * 1000)) ((n : ℚ) * (((l.length * (260 + 4 * n) + rest.length : ℕ) : ℚ) /
    ((240 + 4 * n + 20 : ℕ) : ℚ))) hdt
  have X : (n : ℚ) * (((l.length * (260 + 4 * n) + rest.length : ℕ) : ℚ) / ((240 + 4 * n + 20 : ℕ) : ℚ)) =
      ((n * l.length : ℕ) : ℤ) + (n : ℚ) * rest.length / (260 + 4 * n) := by
    push_cast
    have : (260 + 4 * n : ℚ) ≠ 0 := by positivity
    have : (240 + 4 * n + 20 : ℚ) = 260 + 4 * n := by ring
    rw [this]
    field_simp
  rw [P, X]
  have hpos : (0 : ℚ) < 260 + 4 * n := by positivity
  have h0 : (0 : ℚ) ≤ (n : ℚ) * rest.length / (260 + 4 * n) := by positivity
  constructor
  · intro c
    have c' : (n : ℚ) * rest.length / (260 + 4 * n) < 1 / 2 := by
      rw [div_lt_iff₀ hpos]
      have : (2 : ℚ) * (n * rest.length) < 260 + 4 * n := by exact_mod_cast c
      linarith
    rw [pyRound_near _ ((n * l.length : ℕ) : ℤ) (by rw [abs_lt]; constructor <;> linarith)]
    exact Int.toNat_natCast _
  · intro c
    have c' : 1 / 2 < (n : ℚ) * rest.length / (260 + 4 * n) := by
      rw [lt_div_iff₀ hpos]
      have : (260 + 4 * n : ℚ) < 2 * (n * rest.length) := by exact_mod_cast c
      linarith
    set y := (n : ℚ) * rest.length / (260 + 4 * n) with hy
    have F : ⌊(((n * l.length : ℕ) : ℤ) : ℚ) + y⌋ = ((n * l.length : ℕ) : ℤ) + ⌊y⌋ := Int.floor_intCast_add _ _
    have Fy : 0 ≤ ⌊y⌋ := Int.floor_nonneg.2 h0
    have Ly := Int.lt_floor_add_one y
    have : ((n * l.length : ℕ) : ℤ) + 1 ≤ pyRound ((((n * l.length : ℕ) : ℤ) : ℚ) + y) := by
      unfold pyRound
      rw [F]
      by_cases c1 : 1 ≤ ⌊y⌋
      · split_ifs <;> omega
      · have c0 : ⌊y⌋ = 0 := by omega
        rw [c0]
        rw [if_neg (by push_cast; linarith), if_pos (by push_cast; linarith)]
        omega
    omega

/-- Two blocks and 200 bytes of a third one. -/
def shortFile : List Byte := fileOf (demoBlocks 16) (List.replicate 200 0)

theorem short_wellFormed : WellFormed 2 (demoBlocks 16) (List.replicate 200 0) :=
  ⟨by decide, by decide, by decide +kernel, by decide +kernel, by decide +kernel, by decide +kernel, by decide +kernel,
    by decide +kernel, by decide +kernel⟩

theorem short_timed : Timed (demoBlocks 16) (List.replicate 200 0) 2 16 100 :=
  ⟨by decide +kernel, by decide +kernel, by norm_num, by norm_num [demoBlocks]⟩

example : ∃ r, rsrHeader true id shortFile = .ok r ∧ 4 < r.spm.length := by
  obtain ⟨r, e, -, h⟩ := C139_tail short_wellFormed short_timed (by decide)
  exact ⟨r, e, h (by rw [List.length_replicate]; norm_num)⟩

/-- **C139** (false) Class and function agree about the times of every well-formed file: a file of two blocks and 200 bytes of a
third one has four samples, which the class finds; the function returns more times. -/
theorem C139_tail_false : ¬ ∀ (n : Nat) (l : List Block) (rest : List Byte) (rate : Nat) (s : ℚ), WellFormed n l rest →
    Timed l rest n rate s → rate = 16 → ∀ hd r, readHdr id none (fileOf l rest) = .ok hd →
      rsrHeader true id (fileOf l rest) = .ok r → r.spm = hd.spm := by
  intro H
  obtain ⟨r, e, -, h⟩ := C139_tail short_wellFormed short_timed (by decide)
  obtain ⟨dt, hd, -, -, -, e', p, -⟩ := file_ok ieee_id short_wellFormed short_timed (by decide) (by decide +kernel) none
  have := H 2 (demoBlocks 16) (List.replicate 200 0) 16 100 short_wellFormed short_timed rfl hd r e' e
  have h' := h (by rw [List.length_replicate]; norm_num)
  rw [this, p, arange_length, samples_length short_wellFormed] at h'
  exact lt_irrefl _ h'

/-- **C139** (false) The function reads headers: from NumPy 1.24 on it raises `AttributeError` for every file of at least 260
bytes. -/
theorem C139_numpy_false (rnd : ℚ → ℚ) (f : List Byte) (hf : 260 ≤ f.length) : rsrHeader false rnd f = .attribute := by
  unfold rsrHeader
  rw [hdr_unpack f hf]
  rfl

example : rsrHeader false id wholeFile = .attribute := C139_numpy_false _ _ (by decide +kernel)

end Verif.RsrHeader
