import Verif.Proofs.RsrNum

/-!
# Lemmas about the samples read by the RSR reader
-/
namespace Verif.Rsr
open Spec

/-! ### Extrema -/

theorem argminFrom_keep (i b : Nat) (m : ℚ) (l : List ℚ) (h : ∀ x ∈ l, m ≤ x) : argminFrom i b m l = b := by
  induction l generalizing i with
  | nil => rfl
  | cons x l ih =>
    rw [argminFrom, if_neg (not_lt.2 (h x List.mem_cons_self)), ih _ fun y hy => h y (List.mem_cons_of_mem _ hy)]

theorem argminFrom_spec (i b : Nat) (m : ℚ) (l : List ℚ) (j : Nat) (x : ℚ) (hj : l[j]? = some x) (hm : x < m)
    (h1 : ∀ k < j, ∀ y, l[k]? = some y → x < y) (h2 : ∀ y ∈ l, x ≤ y) : argminFrom i b m l = i + j := by
  induction l generalizing i b m j with
  | nil => simp at hj
  | cons y l ih =>
    cases j with
    | zero =>
      simp only [List.getElem?_cons_zero, Option.some.injEq] at hj
      subst hj
      rw [argminFrom, if_pos hm, argminFrom_keep _ _ _ _ fun z hz => h2 z (List.mem_cons_of_mem _ hz)]
      rfl
    | succ j =>
      simp only [List.getElem?_cons_succ] at hj
      have hy : x < y := h1 0 (by omega) y rfl
      have h1' : ∀ k < j, ∀ y, l[k]? = some y → x < y := fun k hk z hz => h1 (k + 1) (by omega) z (by simpa using hz)
      have h2' : ∀ y ∈ l, x ≤ y := fun z hz => h2 z (List.mem_cons_of_mem _ hz)
      rw [argminFrom]
      split
      · rw [ih _ _ _ j hj hy h1' h2']; omega
      · rw [ih _ _ _ j hj hm h1' h2']; omega

/-- The first smallest element. -/
theorem argmin_spec (l : List ℚ) (j : Nat) (x : ℚ) (hj : l[j]? = some x)
    (h1 : ∀ k < j, ∀ y, l[k]? = some y → x < y) (h2 : ∀ y ∈ l, x ≤ y) : argmin l = .ok j := by
  cases l with
  | nil => simp at hj
  | cons y l =>
    cases j with
    | zero =>
      simp only [List.getElem?_cons_zero, Option.some.injEq] at hj
      subst hj
      rw [argmin, argminFrom_keep _ _ _ _ fun z hz => h2 z (List.mem_cons_of_mem _ hz)]
    | succ j =>
      simp only [List.getElem?_cons_succ] at hj
      rw [argmin, argminFrom_spec 1 0 y l j x hj (h1 0 (by omega) y rfl)
        (fun k hk z hz => h1 (k + 1) (by omega) z (by simpa using hz)) fun z hz => h2 z (List.mem_cons_of_mem _ hz)]
      rw [Nat.add_comm]

theorem foldl_max_spec (l : List ℚ) (x m : ℚ) (hx : x ≤ m) (hl : ∀ y ∈ l, y ≤ m) (hm : x = m ∨ m ∈ l) :
    l.foldl max x = m := by
  induction l generalizing x with
  | nil => simpa using hm
  | cons y l ih =>
    rw [List.foldl_cons]
    refine ih _ (max_le hx (hl y List.mem_cons_self)) (fun z hz => hl z (List.mem_cons_of_mem _ hz)) ?_
    rcases hm with rfl | hm
    · exact .inl (max_eq_left (hl y List.mem_cons_self))
    · rcases List.mem_cons.1 hm with rfl | hm
      · exact .inl (max_eq_right hx)
      · exact .inr hm

theorem foldl_min_spec (l : List ℚ) (x m : ℚ) (hx : m ≤ x) (hl : ∀ y ∈ l, m ≤ y) (hm : x = m ∨ m ∈ l) :
    l.foldl min x = m := by
  induction l generalizing x with
  | nil => simpa using hm
  | cons y l ih =>
    rw [List.foldl_cons]
    refine ih _ (le_min hx (hl y List.mem_cons_self)) (fun z hz => hl z (List.mem_cons_of_mem _ hz)) ?_
    rcases hm with rfl | hm
    · exact .inl (min_eq_left (hl y List.mem_cons_self))
    · rcases List.mem_cons.1 hm with rfl | hm
      · exact .inl (min_eq_right hx)
      · exact .inr hm

theorem pyMax_spec (l : List ℚ) (m : ℚ) (hm : m ∈ l) (hl : ∀ y ∈ l, y ≤ m) : pyMax l = .ok m := by
  cases l with
  | nil => cases hm
  | cons x l =>
    rw [pyMax, foldl_max_spec l x m (hl x List.mem_cons_self) (fun y hy => hl y (List.mem_cons_of_mem _ hy))]
    rcases List.mem_cons.1 hm with rfl | hm
    · exact .inl rfl
    · exact .inr hm

theorem pyMin_spec (l : List ℚ) (m : ℚ) (hm : m ∈ l) (hl : ∀ y ∈ l, m ≤ y) : pyMin l = .ok m := by
  cases l with
  | nil => cases hm
  | cons x l =>
    rw [pyMin, foldl_min_spec l x m (hl x List.mem_cons_self) (fun y hy => hl y (List.mem_cons_of_mem _ hy))]
    rcases List.mem_cons.1 hm with rfl | hm
    · exact .inl rfl
    · exact .inr hm

/-! ### Words -/

theorem be_word (z : Int) : (be (word z) : Int) = z % 65536 := by
  have h1 := Int.emod_nonneg z (show (65536 : Int) ≠ 0 by decide)
  have h2 := Int.emod_lt_of_pos z (show (0 : Int) < 65536 by decide)
  simp only [be, word, List.foldl_cons, List.foldl_nil]
  omega

theorem word_length (z : Int) : (word z).length = 2 := rfl

/-- The words of a list of samples as unpacked. -/
theorem unpack_words (b : Bool) (d : List (Int × Int)) (rest : List Byte) :
    unpackAll (List.replicate d.length (if b then [Fmt.H, Fmt.H] else [Fmt.h, Fmt.h])).flatten
      ((d.flatMap fun p => word p.2 ++ word p.1) ++ rest) =
    d.flatMap fun p => [(if b then Fmt.H else Fmt.h).read (word p.2), (if b then Fmt.H else Fmt.h).read (word p.1)] := by
  induction d with
  | nil => rfl
  | cons p d ih =>
    rw [List.length_cons, List.replicate_succ, List.flatten_cons, List.flatMap_cons, List.flatMap_cons]
    cases b
    · simp only [Bool.false_eq_true, if_false] at *
      simp only [List.cons_append, List.nil_append, unpackAll, Fmt.size]
      rw [← ih]
      simp [word]
    · simp only [if_true] at *
      simp only [List.cons_append, List.nil_append, unpackAll, Fmt.size]
      rw [← ih]
      simp [word]

theorem evens_pairs {α : Type} (d : List (Int × Int)) (f g : Int × Int → α) :
    evens (d.flatMap fun p => [f p, g p]) = d.map f := by
  induction d with
  | nil => rfl
  | cons p d ih =>
    rw [List.flatMap_cons, List.cons_append, List.cons_append, List.nil_append, evens, ih, List.map_cons]

theorem evens_drop_pairs {α : Type} (d : List (Int × Int)) (f g : Int × Int → α) :
    evens ((d.flatMap fun p => [f p, g p]).drop 1) = d.map g := by
  induction d with
  | nil => rfl
  | cons p d ih =>
    rw [List.flatMap_cons, List.cons_append, List.cons_append, List.nil_append, List.drop_one, List.tail_cons,
      List.map_cons, ← ih]
    cases d with
    | nil => rfl
    | cons q d => simp [List.flatMap_cons, evens]

theorem pairs_length {α : Type} (d : List (Int × Int)) (f g : Int × Int → α) :
    (d.flatMap fun p => [f p, g p]).length = 2 * d.length := by
  induction d with
  | nil => rfl
  | cons p d ih => rw [List.flatMap_cons, List.length_append, ih]; simp; omega

/-- The samples of an unpacked block. -/
theorem slices (v : List Val) (d : List (Int × Int)) (f g : Int × Int → Val) (hd : d ≠ []) :
    sliceI d.length (v ++ d.flatMap fun p => [f p, g p]) = d.map g ∧
    sliceQ d.length (v ++ d.flatMap fun p => [f p, g p]) = d.map f := by
  have hl := pairs_length d f g
  have hp : 0 < d.length := List.length_pos_iff.2 hd
  constructor
  · unfold sliceI
    rw [List.length_append, hl, show v.length + 2 * d.length - (2 * d.length - 1) = v.length + 1 by omega,
      List.drop_append, List.drop_of_length_le (by omega), List.nil_append,
      show v.length + 1 - v.length = 1 by omega, evens_drop_pairs]
  · unfold sliceQ
    rw [List.length_append, hl, show v.length + 2 * d.length - 2 * d.length = v.length by omega,
      List.drop_left, evens_pairs]

/-! ### Blocks -/

theorem data_bytes_length (d : List (Int × Int)) : (d.flatMap fun p => word p.2 ++ word p.1).length = 4 * d.length := by
  induction d with
  | nil => rfl
  | cons p d ih => rw [List.flatMap_cons, List.length_append, ih]; simp [word]; omega

theorem block_length (b : Block) (n : Nat) (h1 : b.hdr.length = 260) (h2 : b.data.length = n) :
    b.bytes.length = 260 + 4 * n := by
  rw [Block.bytes, List.length_append, data_bytes_length, h1, h2]

theorem file_length (n : Nat) (l : List Block) (rest : List Byte) (h : ∀ b ∈ l, b.bytes.length = 260 + 4 * n) :
    (fileOf l rest).length = l.length * (260 + 4 * n) + rest.length := by
  unfold fileOf
  rw [List.length_append]
  congr 1
  induction l with
  | nil => simp
  | cons b l ih =>
    rw [List.flatMap_cons, List.length_append, ih fun b hb => h b (List.mem_cons_of_mem _ hb),
      h b List.mem_cons_self, List.length_cons]
    ring

/-- The bytes of block number `i`. -/
theorem sfduBytes_block (n : Nat) (l : List Block) (rest : List Byte) (h : ∀ b ∈ l, b.bytes.length = 260 + 4 * n)
    (i : Nat) (b : Block) (hb : l[i]? = some b) : sfduBytes (fileOf l rest) (260 + 4 * n) i = b.bytes := by
  induction l generalizing i with
  | nil => simp at hb
  | cons c l ih =>
    cases i with
    | zero =>
      simp only [List.getElem?_cons_zero, Option.some.injEq] at hb
      subst hb
      simp only [sfduBytes, fileOf, List.flatMap_cons, Nat.zero_mul, List.drop_zero, List.append_assoc]
      rw [List.take_append_of_le_length (h c List.mem_cons_self).ge, List.take_of_length_le (h c List.mem_cons_self).le]
    | succ i =>
      rw [← ih (fun b hb => h b (List.mem_cons_of_mem _ hb)) i (by simpa using hb)]
      simp only [sfduBytes, fileOf, List.flatMap_cons, List.append_assoc]
      rw [show (i + 1) * (260 + 4 * n) = (260 + 4 * n) + i * (260 + 4 * n) by ring, ← List.drop_drop,
        List.drop_append, List.drop_of_length_le (h c List.mem_cons_self).le, h c List.mem_cons_self, Nat.sub_self]
      rfl

/-- What one block gives. -/
theorem unpack_block (bias : Bool) (b : Block) (h1 : b.hdr.length = 260) (h0 : b.data ≠ []) :
    ∃ v, unpackFrom (sfduFmtOf bias b.data.length) b.bytes = .ok v ∧
      (sliceI b.data.length v).map Val.toInt = b.data.map (fun p => ((if bias then Fmt.H else Fmt.h).read (word p.1)).toInt) ∧
      (sliceQ b.data.length v).map Val.toInt = b.data.map (fun p => ((if bias then Fmt.H else Fmt.h).read (word p.2)).toInt) := by
  have hl := block_length b _ h1 rfl
  refine ⟨unpackAll (sfduFmtOf bias b.data.length) b.bytes, ?_, ?_⟩
  · unfold unpackFrom
    rw [if_neg (by rw [calcsize_sfdu, hl]; omega)]
  · have e : unpackAll (sfduFmtOf bias b.data.length) b.bytes = unpackAll hdrFmt b.bytes ++
        b.data.flatMap fun p => [(if bias then Fmt.H else Fmt.h).read (word p.2),
          (if bias then Fmt.H else Fmt.h).read (word p.1)] := by
      rw [sfduFmtOf_eq, unpackAll_append]
      congr 1
      rw [calcsize_hdr, Block.bytes, List.drop_append, List.drop_of_length_le h1.le, h1, Nat.sub_self, List.drop_zero,
        List.nil_append]
      have := unpack_words bias b.data []
      rw [List.append_nil] at this
      exact this
    obtain ⟨s1, s2⟩ := slices (unpackAll hdrFmt b.bytes) b.data
      (fun p => (if bias then Fmt.H else Fmt.h).read (word p.2))
      (fun p => (if bias then Fmt.H else Fmt.h).read (word p.1)) h0
    rw [e, s1, s2, List.map_map, List.map_map]
    exact ⟨rfl, rfl⟩

/-- The word as the format reads it. -/
def rawWord (bias : Bool) (z : Int) : Int := ((if bias then Fmt.H else Fmt.h).read (word z)).toInt

theorem zip_raw (bias : Bool) (d : List (Int × Int)) :
    (d.map fun p => ((if bias then Fmt.H else Fmt.h).read (word p.1)).toInt).zip
      (d.map fun p => ((if bias then Fmt.H else Fmt.h).read (word p.2)).toInt) =
    d.map fun p => (rawWord bias p.1, rawWord bias p.2) := by
  induction d with
  | nil => rfl
  | cons p d ih => rw [List.map_cons, List.map_cons, List.map_cons, List.zip_cons_cons, ih]; rfl

/-- The loop over the blocks. -/
theorem readLoop_blocks (bias : Bool) (n : Nat) (hn : 0 < n) (l : List Block) (rest : List Byte)
    (h1 : ∀ b ∈ l, b.hdr.length = 260) (h2 : ∀ b ∈ l, b.data.length = n) (k i : Nat) (hk : i + k = l.length)
    (acc : List (Int × Int)) :
    readLoop (fileOf l rest) (sfduFmtOf bias n) n k i acc =
      .ok (acc ++ (l.drop i).flatMap fun b => b.data.map fun p => (rawWord bias p.1, rawWord bias p.2)) := by
  have hb : ∀ b ∈ l, b.bytes.length = 260 + 4 * n := fun b hb => block_length b n (h1 b hb) (h2 b hb)
  induction k generalizing i acc with
  | zero => simp [readLoop, List.drop_of_length_le (show l.length ≤ i by omega)]
  | succ k ih =>
    have hi : i < l.length := by omega
    have hmem : l[i] ∈ l := List.getElem_mem hi
    obtain ⟨v, e, s1, s2⟩ := unpack_block bias l[i] (h1 _ hmem) (by
      intro k0; have := h2 _ hmem; rw [k0] at this; simp at this; omega)
    rw [h2 _ hmem] at e s1 s2
    rw [readLoop, calcsize_sfdu, sfduBytes_block n l rest hb i l[i] (List.getElem?_eq_getElem hi)]
    rw [if_neg (by rw [hb _ hmem]; omega), e]
    simp only [bind, Except.bind]
    rw [ih (i + 1) (by omega), s1, s2, List.append_assoc, zip_raw, List.drop_eq_getElem_cons hi, List.flatMap_cons]

theorem rawWord_true (z : Int) : rawWord true z = z % 65536 := by
  simp only [rawWord, if_true, Fmt.read, Val.toInt]
  exact be_word z

theorem rawWord_false (z : Int) (h1 : -32768 ≤ z) (h2 : z ≤ 32767) : rawWord false z = z := by
  have h := be_word z
  simp only [rawWord, Bool.false_eq_true, if_false, Fmt.read, Val.toInt, signed]
  norm_num
  split <;> omega

/-- The sample the bias correction makes of a word. -/
theorem biasWord_raw (z : Int) (h1 : -32768 ≤ z) (h2 : z ≤ 32767) :
    biasWord (rawWord true z) = if z = -32768 then 65537 else 2 * z + 1 := by
  rw [rawWord_true, biasWord]
  norm_num
  split <;> split <;> omega

/-! ### The header of a well-formed file -/

theorem intField_of {vs : List Val} {name : String} {z : Int} (h : field vs name = some (.int z)) : intField vs name = z := by
  rw [intField, h]

theorem dblField_of {vs : List Val} {name : String} {x : Dbl} (h : field vs name = some (.dbl x)) : dblField vs name = x := by
  rw [dblField, h]

theorem chrField_of {vs : List Val} {name : String} {b : Byte} (h : field vs name = some (.bytes [b])) :
    chrField vs name = b.val := by
  rw [chrField, h]

/-- The values that the constructor unpacks. -/
theorem hdr_unpack (f : List Byte) (hf : 260 ≤ f.length) :
    unpackFrom hdrFmt (f.take (calcsize hdrFmt)) = .ok (unpackAll (hdrFmt ++ []) f) := by
  rw [List.append_nil, calcsize_hdr, unpackFrom, calcsize_hdr, if_neg (by rw [List.length_take]; omega),
    unpackAll_take _ _ _ calcsize_hdr.le]

theorem nPer_ok {rnd : ℚ → ℚ} (h : Ieee rnd) (bits len : ℕ) (hb : 0 < bits) (hb2 : bits ≤ 255) (hl : len ≤ 65535) :
    nPer rnd bits len = .ok (4 * len / bits) := by
  have e1 : rnd ((bits : ℚ) / 8) = bits / 8 := by
    have := h.exact bits 3 (by rw [abs_of_nonneg (by positivity)]; norm_cast; omega) (by norm_num)
    norm_num at this; exact this
  have e2 : rnd (2 * ((bits : ℚ) / 8)) = bits / 4 := by
    have := h.exact bits 2 (by rw [abs_of_nonneg (by positivity)]; norm_cast; omega) (by norm_num)
    norm_num at this
    rw [← this]; congr 1; ring
  have hbq : (0 : ℚ) < bits := by exact_mod_cast hb
  unfold nPer
  simp only [e1, e2]
  rw [if_neg (by positivity)]
  have : (len : ℚ) / (bits / 4) = ((4 * len : ℕ) : ℚ) / bits := by push_cast; field_simp
  rw [this, pyInt_div h _ _ hb (by omega) (by omega)]

theorem nPer_zero {rnd : ℚ → ℚ} (h : Ieee rnd) (len : ℕ) : nPer rnd 0 len = .error .zeroDivision := by
  unfold nPer
  simp [h.zero]

/-- The header in terms of the bytes at their offsets. -/
theorem readHdr_eq {rnd : ℚ → ℚ} (h : Ieee rnd) (ul : Option Int) (f : List Byte) (hf : 260 ≤ f.length)
    (hb : 0 < numAt f 68 1) (hr : 0 < numAt f 70 2) (s : ℚ) (hs : dblOfBits (numAt f 80 8) = .fin s) :
    ∃ dt : ℚ, dt = rnd (1 / (numAt f 70 2 * 1000)) ∧ dt * (numAt f 70 2 * 1000) ≤ 1 + 1 / 2 ^ 53 ∧
      1 - 1 / 2 ^ 53 ≤ dt * (numAt f 70 2 * 1000) ∧
      readHdr rnd ul f = .ok
        { nSfdu := nSfdu rnd f.length (numAt f 12 8 + 20), nPer := 4 * numAt f 258 2 / numAt f 68 1
          rate := numAt f 70 2
          spm := arange rnd s dt (nPoints rnd s dt (4 * numAt f 258 2 / numAt f 68 1 *
            nSfdu rnd f.length (numAt f 12 8 + 20)))
          year := if numAt f 60 2 = 0 then numAt f 76 2 else numAt f 60 2
          doy := if numAt f 62 2 = 0 then numAt f 78 2 else numAt f 62 2
          dsn := numAt f 43 1, ulDsn := ul.getD (numAt f 53 1), band := (f.getD 51 0).val, ulBand := (f.getD 50 0).val
          trackMode := if 2011 < numAt f 60 2 then 2 else 1
          gain := signedAt f 54 1, bandwidth := numAt f 55 1 } := by
  have bound : ∀ o n, numAt f o n < 256 ^ n := by
    intro o n
    induction n with
    | zero => simp [numAt]
    | succ n ih =>
      have := (f.getD (o + n) 0).isLt
      rw [numAt, Nat.pow_succ]; omega
  have bl := bound 258 2
  have bb := bound 68 1
  have br := bound 70 2
  norm_num at bl bb br
  obtain ⟨dt, d0, e, d1, d2⟩ := sampleDt_ok h (numAt f 70 2) hr (by omega)
  refine ⟨dt, d0, d1, d2, ?_⟩
  have I := fun name o n sg he => intField_of (int_at [] f hf name o n sg he)
  have i1 := I "sfdu_length" 12 8 false (by decide +kernel)
  have i2 := I "sh_bits_per_sample" 68 1 false (by decide +kernel)
  have i3 := I "Data_length" 258 2 false (by decide +kernel)
  have i4 := I "sh_sample_rate" 70 2 false (by decide +kernel)
  have i5 := I "sh_year" 60 2 false (by decide +kernel)
  have i6 := I "sh_doy" 62 2 false (by decide +kernel)
  have i7 := I "sh_sfdu_year" 76 2 false (by decide +kernel)
  have i8 := I "sh_sfdu_doy" 78 2 false (by decide +kernel)
  have i9 := I "sh_dss_id" 43 1 false (by decide +kernel)
  have i10 := I "sh_ul_dss_id" 53 1 false (by decide +kernel)
  have i11 := I "sh_fgain_px_no" 54 1 true (by decide +kernel)
  have i12 := I "sh_fgain_if_bandwidth" 55 1 false (by decide +kernel)
  have d3 := dblField_of (dbl_at [] f hf "sh_sfdu_seconds" 80 (by decide +kernel))
  have c1 := chrField_of (chr_at [] f hf "sh_dl_band" 51 (by decide +kernel))
  have c2 := chrField_of (chr_at [] f hf "sh_ulband" 50 (by decide +kernel))
  rw [hs] at d3
  simp only [Bool.false_eq_true, if_false, if_true] at i1 i2 i3 i4 i5 i6 i7 i8 i9 i10 i11 i12
  unfold readHdr
  rw [hdr_unpack f hf]
  simp only [bind, Except.bind, i1, i2, i3, i4, i5, i6, i7, i8, i9, i10, i11, i12, d3, c1, c2, Int.toNat_natCast,
    nPer_ok h _ _ hb (by omega) (by omega : numAt f 258 2 ≤ 65535), e]
  have l1 : ∀ a : ℕ, ((a : ℤ) + 20).toNat = a + 20 := by intro a; omega
  have l2 : ∀ a : ℕ, ((a : ℤ) = 0) = (a = 0) := by intro a; exact propext (by omega)
  have l3 : ∀ a : ℕ, ((2011 : ℤ) < a) = (2011 < a) := by intro a; exact propext (by omega)
  simp only [l1, l2, l3]

/-! ### The range of blocks -/

theorem arange_get (rnd : ℚ → ℚ) (s dt : ℚ) (n k : ℕ) :
    (arange rnd s dt n)[k]? = if k < n then some (rnd (s + rnd (dt * k))) else none := by
  unfold arange
  by_cases hk : k < n
  · rw [List.getElem?_map, List.getElem?_range hk, if_pos hk]; rfl
  · rw [if_neg hk, List.getElem?_eq_none (by rw [List.length_map, List.length_range]; omega)]

theorem Ieee.ne_zero {rnd : ℚ → ℚ} (h : Ieee rnd) {x : ℚ} (h1 : 1 / 2 ^ 27 ≤ |x|) (h2 : |x| ≤ 2 ^ 100) : rnd x ≠ 0 := by
  intro k
  have := h.rel x (le_trans (by norm_num) h1) (le_trans h2 (by norm_num))
  rw [k, zero_sub, abs_neg, le_div_iff₀ (by positivity)] at this
  have : (0 : ℚ) < |x| := lt_of_lt_of_le (by norm_num) h1
  norm_num at *
  linarith

/-- The sample next to the time of a sample is that sample. -/
theorem argmin_time {rnd : ℚ → ℚ} (h : Ieee rnd) {dt R s : ℚ} {n : ℕ} (t : Times dt R s n) (hs : rnd s = s) (j : ℕ)
    (hj : j < n) :
    argmin ((arange rnd s dt n).map fun x => |rnd (x - rnd (s + rnd (dt * j)))|) = .ok j := by
  have far : ∀ k, k < n → k ≠ j → 0 < |rnd (rnd (s + rnd (dt * k)) - rnd (s + rnd (dt * j)))| := by
    intro k hk hne
    rw [abs_pos]
    have a1 := abs_le.1 (arange_near h t hs k hk.le)
    have a2 := abs_le.1 (arange_near h t hs j hj.le)
    have b1 := t.mul_bound k hk.le
    have b2 := t.mul_bound j hj.le
    have hd := t.dt_lower
    have c1 : 0 ≤ dt * k := mul_nonneg (le_trans (by norm_num) hd) (by positivity)
    have c2 : 0 ≤ dt * j := mul_nonneg (le_trans (by norm_num) hd) (by positivity)
    refine h.ne_zero ?_ ?_
    · rcases Nat.lt_or_gt_of_ne hne with hlt | hgt
      · have := arange_lt h t hs k j hlt hj.le
        rw [abs_of_nonpos (by norm_num at *; linarith)]; linarith
      · have := arange_lt h t hs j k hgt hk.le
        rw [abs_of_nonneg (by norm_num at *; linarith)]; linarith
    · rw [abs_le]
      obtain ⟨a1, a1'⟩ := a1
      obtain ⟨a2, a2'⟩ := a2
      have w : (2 : ℚ) ^ 20 + 1 ≤ 2 ^ 100 := by norm_num
      have w2 : (1 : ℚ) / 2 ^ 31 ≤ 1 / 2 := by norm_num
      constructor <;> linarith
  refine argmin_spec _ j 0 ?_ ?_ ?_
  · rw [List.getElem?_map, arange_get, if_pos hj]
    simp [h.zero]
  · intro k hk y hy
    rw [List.getElem?_map, arange_get, if_pos (by omega)] at hy
    simp only [Option.map_some, Option.some.injEq] at hy
    rw [← hy]
    exact far k (by omega) (by omega)
  · intro y hy
    obtain ⟨x, -, rfl⟩ := List.mem_map.1 hy
    exact abs_nonneg _

theorem mem_arange {rnd : ℚ → ℚ} {s dt x : ℚ} {n : ℕ} : x ∈ arange rnd s dt n ↔ ∃ k < n, x = rnd (s + rnd (dt * k)) := by
  unfold arange
  simp only [List.mem_map, List.mem_range]
  exact ⟨fun ⟨k, h, e⟩ => ⟨k, h, e.symm⟩, fun ⟨k, h, e⟩ => ⟨k, h, e.symm⟩⟩

theorem arange_mono {rnd : ℚ → ℚ} (h : Ieee rnd) {dt R s : ℚ} {n : ℕ} (t : Times dt R s n) (hs : rnd s = s) (j k : ℕ)
    (hjk : j ≤ k) (hk : k ≤ n) : rnd (s + rnd (dt * j)) ≤ rnd (s + rnd (dt * k)) := by
  rcases Nat.eq_or_lt_of_le hjk with rfl | hlt
  · exact le_rfl
  · have := arange_lt h t hs j k hlt hk
    have w : (0 : ℚ) < 1 / 2 ^ 27 := by norm_num
    linarith

/-- The range of all blocks. -/
theorem sfduRange_all {rnd : ℚ → ℚ} (h : Ieee rnd) {dt R s : ℚ} {n m : ℕ} (hd : Hdr) (hn : 0 < n) (hm : 0 < m)
    (t : Times dt R s (n * m)) (hs : rnd s = s) (h1 : hd.nPer = n) (h2 : hd.nSfdu = m)
    (h3 : hd.rate = 1 ∨ hd.rate = 16 ∨ hd.rate = 50) (hn2 : n ≤ 2 ^ 70) :
    pyMin (arange rnd s dt (n * m)) = .ok (rnd (s + rnd (dt * (0 : ℕ)))) ∧
    pyMax (arange rnd s dt (n * m)) = .ok (rnd (s + rnd (dt * (n * m - 1 : ℕ)))) ∧
    sfduRange rnd hd (arange rnd s dt (n * m)) (rnd (s + rnd (dt * (0 : ℕ)))) (rnd (s + rnd (dt * (n * m - 1 : ℕ)))) =
      .ok (0, m - 1) := by
  have hnm : 0 < n * m := Nat.mul_pos hn hm
  have hN : n * m < 2 ^ 53 := by
    have : ((n * m : ℕ) : ℚ) ≤ 2 ^ 45 := t.n_bound
    have : n * m ≤ 2 ^ 45 := by exact_mod_cast this
    omega
  refine ⟨pyMin_spec _ _ (mem_arange.2 ⟨0, hnm, rfl⟩) ?_, pyMax_spec _ _ (mem_arange.2 ⟨n * m - 1, by omega, rfl⟩) ?_, ?_⟩
  · intro y hy
    obtain ⟨k, hk, rfl⟩ := mem_arange.1 hy
    exact arange_mono h t hs 0 k (by omega) hk.le
  · intro y hy
    obtain ⟨k, hk, rfl⟩ := mem_arange.1 hy
    exact arange_mono h t hs k _ (by omega) (by omega)
  · unfold sfduRange
    rw [if_neg (not_not.2 h3), argmin_time h t hs 0 hnm, argmin_time h t hs (n * m - 1) (by omega)]
    simp only [bind, Except.bind, h1, h2]
    rw [if_neg (by omega)]
    have e1 : (pyInt (rnd (((0 : ℕ) : ℚ) / n))).toNat = 0 / n := pyInt_div h 0 n hn (by norm_num) hn2
    have e2 := pyInt_div h (n * m - 1) n hn (by omega) hn2
    have e3 : (n * m - 1) / n = m - 1 := by
      obtain ⟨m', rfl⟩ : ∃ m', m = m' + 1 := ⟨m - 1, by omega⟩
      rw [Nat.add_sub_cancel, Nat.mul_add, Nat.mul_one,
        show n * m' + n - 1 = (n - 1) + n * m' by omega, Nat.add_mul_div_left _ _ hn,
        Nat.div_eq_of_lt (by omega), Nat.zero_add]
    rw [e1, e2, e3, if_neg (by omega), Nat.zero_div]

end Verif.Rsr
