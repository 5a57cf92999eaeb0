import Verif.Proofs.RsrFile

/-!
# C68-C71: header, samples, times and decimation of RSR files
-/
namespace Verif.Rsr
open Spec

/-- Exact arithmetic satisfies the hypotheses about rounding. -/
theorem ieee_id : Ieee id where
  rel x _ _ := by simp; positivity
  exact _ _ _ _ := rfl
  double _ _ _ := rfl

/-- A header for the examples: `n` samples of `bits` bits per block, year, rate in kHz, start at 100 s. -/
def demoHdr (n bits rate year : Nat) : List Byte :=
  (List.range 260).map fun i =>
    if i = 18 then ⟨(240 + bits / 4 * n) / 256 % 256, Nat.mod_lt _ (by decide)⟩
    else if i = 19 then ⟨(240 + bits / 4 * n) % 256, Nat.mod_lt _ (by decide)⟩
    else if i = 51 then 88
    else if i = 54 then 255
    else if i = 60 then ⟨year / 256 % 256, Nat.mod_lt _ (by decide)⟩
    else if i = 61 then ⟨year % 256, Nat.mod_lt _ (by decide)⟩
    else if i = 68 then ⟨bits % 256, Nat.mod_lt _ (by decide)⟩
    else if i = 71 then ⟨rate % 256, Nat.mod_lt _ (by decide)⟩
    else if i = 76 then 7
    else if i = 77 then 225
    else if i = 80 then 64
    else if i = 81 then 89
    else if i = 258 then ⟨bits / 4 * n / 256 % 256, Nat.mod_lt _ (by decide)⟩
    else if i = 259 then ⟨bits / 4 * n % 256, Nat.mod_lt _ (by decide)⟩
    else 0

/-- A file of two blocks with two samples each, and a stray byte. -/
def demoBlocks (rate : Nat) : List Block :=
  [{ hdr := demoHdr 2 16 rate 2005, data := [(3, -4), (32767, -32768)] },
   { hdr := demoHdr 2 16 rate 2005, data := [(-1, 0), (7, 8)] }]

theorem demo_wellFormed (rate : Nat) (hr : rate = 1 ∨ rate = 16 ∨ rate = 50) : WellFormed 2 (demoBlocks rate) [9] := by
  rcases hr with rfl | rfl | rfl <;>
  exact ⟨by decide, by decide, by decide +kernel, by decide +kernel, by decide +kernel, by decide, by decide +kernel,
    by decide +kernel, by decide +kernel⟩

theorem demo_timed (rate : Nat) (hr : rate = 1 ∨ rate = 16 ∨ rate = 50) : Timed (demoBlocks rate) [9] 2 rate 100 := by
  rcases hr with rfl | rfl | rfl <;>
  exact ⟨by decide +kernel, by decide +kernel, by norm_num, by norm_num [demoBlocks]⟩

/-! ### C68 -/

/-- **C68** For every byte string of at least 260 bytes the header is unpacked, and every field has the value that the bytes at
its offset represent. -/
theorem C68_layout (f : List Byte) (hf : 260 ≤ f.length) :
    ∃ vs, unpackFrom hdrFmt (f.take (calcsize hdrFmt)) = .ok vs ∧
      (∀ name o n sg, (name, o, n, sg) ∈ intLayout →
        field vs name = some (.int (if sg then signedAt f o n else numAt f o n))) ∧
      (∀ name o, (name, o) ∈ dblLayout → field vs name = some (.dbl (dblOfBits (numAt f o 8)))) ∧
      (∀ name o, (name, o) ∈ chrLayout → field vs name = some (.bytes [f.getD o 0])) :=
  ⟨_, hdr_unpack f hf, fun name o n sg he => int_at [] f hf name o n sg he, fun name o he => dbl_at [] f hf name o he,
    fun name o he => chr_at [] f hf name o he⟩

example : ∃ vs, unpackFrom hdrFmt ((demoHdr 2 16 16 2005).take (calcsize hdrFmt)) = .ok vs ∧ field vs "sh_year" = some (.int 2005) ∧
    field vs "sh_fgain_px_no" = some (.int (-1)) := by
  obtain ⟨vs, e, h1, -, -⟩ := C68_layout (demoHdr 2 16 16 2005) (by decide +kernel)
  refine ⟨vs, e, ?_, ?_⟩
  · rw [h1 "sh_year" 60 2 false (by decide +kernel)]; decide +kernel
  · rw [h1 "sh_fgain_px_no" 54 1 true (by decide +kernel)]; decide +kernel

/-- **C68** A file with fewer than 260 bytes is rejected with `struct.error`, whatever the keywords. -/
theorem C68_short {X : Type} (rnd : ℚ → ℚ) (cplx : Int × Int → X) (dec : Decimate X) (fl : Flags) (bias : Bool)
    (ul : Option Int) (f : List Byte) (hf : f.length < 260) : construct rnd cplx dec fl bias ul f = .error .struct := by
  unfold construct readHdr unpackFrom
  rw [calcsize_hdr, if_pos (by rw [List.length_take]; omega)]
  rfl

example : construct (X := Int × Int) id id (fun _ l => .ok l) ⟨false, false, false, false, false, false, false, false⟩ true none
    [1, 2, 3] = .error .struct := C68_short _ _ _ _ _ _ _ (by decide)

/-! ### C69 -/

theorem decimation_none (fl : Flags) (rate : Nat) (h : requested fl rate = []) : decimation fl rate = none := by
  obtain ⟨a, b, c, d, e, f, g, i⟩ := fl
  unfold requested at h
  unfold decimation
  by_cases h50 : rate = 50
  · subst h50
    rw [if_pos rfl] at h
    cases a <;> cases b <;> cases c <;> cases d <;> simp at h ⊢
  · rw [if_neg h50] at h
    by_cases h16 : rate = 16
    · subst h16
      rw [if_pos rfl] at h
      cases e <;> cases f <;> cases g <;> cases i <;> simp at h ⊢
    · simp [h50, h16]

theorem decoded_false {n : Nat} {l : List Block} {rest : List Byte} (w : WellFormed n l rest) :
    decoded false l = samples l := by
  unfold decoded samples
  rw [List.map_congr_left (g := id), List.map_id]
  intro p hp
  obtain ⟨b, hb, hpb⟩ := List.mem_flatMap.1 hp
  obtain ⟨r1, r2⟩ := w.range b hb p hpb
  simp only [Bool.false_eq_true, if_false, rawWord_false _ r1.1 r1.2, rawWord_false _ r2.1 r2.2]
  rfl

theorem decoded_true {n : Nat} {l : List Block} {rest : List Byte} (w : WellFormed n l rest) :
    decoded true l = (samples l).map fun p =>
      (if p.1 = -32768 then 65537 else 2 * p.1 + 1, if p.2 = -32768 then 65537 else 2 * p.2 + 1) := by
  unfold decoded samples
  refine List.map_congr_left ?_
  intro p hp
  obtain ⟨b, hb, hpb⟩ := List.mem_flatMap.1 hp
  obtain ⟨r1, r2⟩ := w.range b hb p hpb
  simp only [if_true, biasWord_raw _ r1.1 r1.2, biasWord_raw _ r2.1 r2.2]

/-- **C69** (without the bias correction) For every well-formed file the array of complex numbers consists of the samples of
the file in the order of time, I as real and Q as imaginary part. -/
theorem C69_samples {X : Type} {rnd : ℚ → ℚ} (h : Ieee rnd) (cplx : Int × Int → X) (dec : Decimate X) (fl : Flags)
    (ul : Option Int) {n : Nat} {l : List Block} {rest : List Byte} (w : WellFormed n l rest)
    {rate : Nat} {s : ℚ} (t : Timed l rest n rate s) (hr : rate = 1 ∨ rate = 16 ∨ rate = 50)
    (hsize : (fileOf l rest).length < 2 ^ 53) (hd : requested fl rate = []) :
    ∃ r, construct rnd cplx dec fl false ul (fileOf l rest) = .ok r ∧ r.iq = (samples l).map cplx := by
  obtain ⟨dt, hd', -, -, -, -, -, -, -, -, c⟩ := file_ok h w t hr hsize ul
  rw [c cplx dec fl false, decimation_none fl rate hd, decoded_false w]
  exact ⟨_, rfl, rfl⟩

/-- No keyword. -/
def noFlags : Flags := ⟨false, false, false, false, false, false, false, false⟩

example : ∃ r, construct id id (fun _ l => .ok l) noFlags false none (fileOf (demoBlocks 16) [9]) = .ok r ∧
    r.iq = [(3, -4), (32767, -32768), (-1, 0), (7, 8)] :=
  C69_samples ieee_id _ _ _ _ (demo_wellFormed 16 (by decide)) (demo_timed 16 (by decide)) (by decide) (by decide +kernel)
    (by decide)

/-- **C69** (with the bias correction, partial) Every sample x of a well-formed file that does not contain -32768 becomes
2x + 1. Missing: the sample -32768, see `C69_minimum_false`. -/
theorem C69_bias_partial {X : Type} {rnd : ℚ → ℚ} (h : Ieee rnd) (cplx : Int × Int → X) (dec : Decimate X) (fl : Flags)
    (ul : Option Int) {n : Nat} {l : List Block} {rest : List Byte} (w : WellFormed n l rest)
    {rate : Nat} {s : ℚ} (t : Timed l rest n rate s) (hr : rate = 1 ∨ rate = 16 ∨ rate = 50)
    (hsize : (fileOf l rest).length < 2 ^ 53) (hd : requested fl rate = [])
    (hmin : ∀ p ∈ samples l, p.1 ≠ -32768 ∧ p.2 ≠ -32768) :
    ∃ r, construct rnd cplx dec fl true ul (fileOf l rest) = .ok r ∧
      r.iq = (samples l).map fun p => cplx (2 * p.1 + 1, 2 * p.2 + 1) := by
  obtain ⟨dt, hd', -, -, -, -, -, -, -, -, c⟩ := file_ok h w t hr hsize ul
  rw [c cplx dec fl true, decimation_none fl rate hd, decoded_true w]
  refine ⟨_, rfl, ?_⟩
  simp only [List.map_map]
  refine List.map_congr_left ?_
  intro p hp
  obtain ⟨h1, h2⟩ := hmin p hp
  simp only [Function.comp, if_neg h1, if_neg h2]

/-- A block without the sample -32768. -/
def mildBlocks : List Block := [{ hdr := demoHdr 2 16 1 0, data := [(3, -4), (32767, -32767)] }]

theorem mild_wellFormed : WellFormed 2 mildBlocks [] :=
  ⟨by decide, by decide, by decide +kernel, by decide +kernel, by decide +kernel, by decide, by decide +kernel,
    by decide +kernel, by decide +kernel⟩

theorem mild_timed : Timed mildBlocks [] 2 1 100 :=
  ⟨by decide +kernel, by decide +kernel, by norm_num, by norm_num [mildBlocks]⟩

example : ∃ r, construct id id (fun _ l => .ok l) noFlags true none (fileOf mildBlocks []) = .ok r ∧
    r.iq = [(7, -7), (65535, -65533)] :=
  C69_bias_partial ieee_id _ _ _ _ mild_wellFormed mild_timed (by decide) (by decide +kernel)
    (by decide) (by decide +kernel)

/-- **C69** is false for the most negative sample: in every well-formed file it becomes 65537, which is larger than every
other value, instead of -65535, because the two's complement is taken of numbers > 2¹⁵ only. -/
theorem C69_minimum_false {X : Type} {rnd : ℚ → ℚ} (h : Ieee rnd) (cplx : Int × Int → X) (dec : Decimate X) (fl : Flags)
    (ul : Option Int) {n : Nat} {l : List Block} {rest : List Byte} (w : WellFormed n l rest)
    {rate : Nat} {s : ℚ} (t : Timed l rest n rate s) (hr : rate = 1 ∨ rate = 16 ∨ rate = 50)
    (hsize : (fileOf l rest).length < 2 ^ 53) (hd : requested fl rate = []) :
    ∃ r, construct rnd cplx dec fl true ul (fileOf l rest) = .ok r ∧
      (∀ (k : Nat) (q : Int), (samples l)[k]? = some (-32768, q) → ∃ y : Int, r.iq[k]? = some (cplx (65537, y))) ∧
      (∀ (k : Nat) (q : Int), (samples l)[k]? = some (q, -32768) → ∃ y : Int, r.iq[k]? = some (cplx (y, 65537))) := by
  obtain ⟨dt, hd', -, -, -, -, -, -, -, -, c⟩ := file_ok h w t hr hsize ul
  rw [c cplx dec fl true, decimation_none fl rate hd, decoded_true w]
  refine ⟨_, rfl, ?_, ?_⟩
  · intro k q e
    simp only [List.getElem?_map, e, Option.map_some, if_true]
    exact ⟨_, rfl⟩
  · intro k q e
    simp only [List.getElem?_map, e, Option.map_some, if_true]
    exact ⟨_, rfl⟩

example : ∃ r, construct id id (fun _ l => .ok l) noFlags true none (fileOf (demoBlocks 50) [9]) = .ok r ∧
    ∃ y, r.iq[1]? = some (y, 65537) := by
  obtain ⟨r, e, -, h⟩ := C69_minimum_false ieee_id id (fun _ l => .ok l) noFlags none (demo_wellFormed 50 (by decide))
    (demo_timed 50 (by decide)) (by decide) (by decide +kernel) (by decide)
  exact ⟨r, e, h 1 32767 (by decide)⟩

theorem sfduBytes_length (f : List Byte) (len i : Nat) : (sfduBytes f len i).length = min len (f.length - i * len) := by
  rw [sfduBytes, List.length_take, List.length_drop]

/-- A loop that reaches an incomplete block. -/
theorem readLoop_short (f : List Byte) (bias : Bool) (n : Nat) (hmod : f.length % (260 + 4 * n) ≠ 0) :
    ∀ (k i : Nat) (acc : List (Int × Int)), i ≤ f.length / (260 + 4 * n) → f.length / (260 + 4 * n) < i + k →
      readLoop f (sfduFmtOf bias n) n k i acc = .error .struct := by
  have hdm := Nat.div_add_mod f.length (260 + 4 * n)
  have hlt := Nat.mod_lt f.length (show 260 + 4 * n > 0 by omega)
  generalize f.length / (260 + 4 * n) = a at *
  generalize f.length % (260 + 4 * n) = r at *
  intro k
  induction k with
  | zero => intro i acc h1 h2; omega
  | succ k ih =>
    intro i acc h1 h2
    rw [readLoop, calcsize_sfdu]
    have hl := sfduBytes_length f (260 + 4 * n) i
    have hi : i * (260 + 4 * n) ≤ a * (260 + 4 * n) := Nat.mul_le_mul_right _ h1
    rw [← hdm, Nat.mul_comm (260 + 4 * n) a] at hl
    rw [if_neg (by rw [hl]; omega)]
    rcases Nat.eq_or_lt_of_le h1 with rfl | hlt'
    · unfold unpackFrom
      rw [calcsize_sfdu, if_pos (by rw [hl]; omega)]
      rfl
    · have : (i + 1) * (260 + 4 * n) ≤ a * (260 + 4 * n) := Nat.mul_le_mul_right _ hlt'
      rw [Nat.add_mul, Nat.one_mul] at this
      unfold unpackFrom
      rw [calcsize_sfdu, if_neg (by rw [hl]; omega)]
      simp only [bind, Except.bind]
      exact ih _ _ hlt' (by omega)

/-- **C69** is false for files with 8 bits per sample: every such file (blocks of 260 bytes of header and 2 `n` bytes of data)
ends in a `struct.error`, because the data are always unpacked as 16-bit words - except if its length happens to be a
multiple of 260 + 4 `n`. -/
theorem C69_8bit_false {X : Type} {rnd : ℚ → ℚ} (h : Ieee rnd) (cplx : Int × Int → X) (dec : Decimate X) (fl : Flags)
    (bias : Bool) (ul : Option Int) (f : List Byte) {rate n m : Nat} {s : ℚ}
    (hr : rate = 1 ∨ rate = 16 ∨ rate = 50) (hsize : f.length < 2 ^ 53) (hn0 : 0 < n) (hm0 : 0 < m)
    (hlen : f.length = m * (260 + 2 * n)) (hmod : f.length % (260 + 4 * n) ≠ 0)
    (hbits : numAt f 68 1 = 8) (hdata : numAt f 258 2 = 2 * n) (hsfdu : numAt f 12 8 = 240 + 2 * n)
    (hrate : numAt f 70 2 = rate) (hstart : dblOfBits (numAt f 80 8) = .fin s) (hs0 : 0 ≤ s)
    (hstop : s + ((n * m : ℕ) : ℚ) / ((rate : ℚ) * 1000) ≤ 2 ^ 19) :
    construct rnd cplx dec fl bias ul f = .error .struct := by
  have hmul : 1 * (260 + 2 * n) ≤ m * (260 + 2 * n) := Nat.mul_le_mul_right _ hm0
  obtain ⟨dt, hd', -, -, -, -, -, -, -, -, c⟩ := hdr_ok h f (n := n) (m := m) hr (by omega) hsize hrate hstart hs0 hstop
    (by omega) (by rw [hbits, hdata]; omega) hn0
    (by rw [hsfdu, hlen, show 240 + 2 * n + 20 = 260 + 2 * n by omega, Nat.mul_div_cancel _ (by omega)]) hm0 ul
  have e : readIQ f bias n (m - 1) = .error .struct := by
    unfold readIQ
    rw [readLoop_short f bias n hmod _ 0 [] (Nat.zero_le _)]
    · rfl
    · rw [Nat.div_lt_iff_lt_mul (by omega), hlen, show 0 + (m - 1 + 1) = m by omega]
      exact Nat.mul_lt_mul_of_pos_left (by omega) hm0
  rw [c cplx dec fl bias, e]
  rfl

example : construct (X := Int × Int) id id (fun _ l => .ok l) noFlags true none (demoHdr 2 8 1 2005 ++ [1, 2, 3, 4]) =
    .error .struct :=
  C69_8bit_false ieee_id _ _ _ _ _ _ (rate := 1) (n := 2) (m := 1) (s := 100) (by decide) (by decide +kernel) (by decide)
    (by decide) (by decide +kernel) (by decide +kernel) (by decide +kernel) (by decide +kernel) (by decide +kernel) (by decide +kernel)
    (by decide +kernel) (by norm_num) (by norm_num)

end Verif.Rsr
