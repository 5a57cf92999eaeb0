import Verif.Props.C70

/-!
# C72, C73: predicted sky frequency, date and tracking mode of RSR files
-/
namespace Verif.Rsr
open Spec

/-! ### C73 -/

/-- **C73** For every file with a readable header: the year and day are those of the header, or those of the first block if the
former are 0; receiving station, bands, gain and bandwidth are read at their documented offsets; the uplink station is that
of the file name if it is given there. -/
theorem C73_date {rnd : ℚ → ℚ} (h : Ieee rnd) (ul : Option Int) (f : List Byte) (hf : 260 ≤ f.length)
    (hb : 0 < numAt f 68 1) (hr : 0 < numAt f 70 2) (s : ℚ) (hs : dblOfBits (numAt f 80 8) = .fin s) :
    ∃ hd, readHdr rnd ul f = .ok hd ∧
      hd.year = (if numAt f 60 2 = 0 then numAt f 76 2 else numAt f 60 2 : Nat) ∧
      hd.doy = (if numAt f 62 2 = 0 then numAt f 78 2 else numAt f 62 2 : Nat) ∧
      hd.rate = numAt f 70 2 ∧ hd.dsn = numAt f 43 1 ∧ hd.ulDsn = ul.getD (numAt f 53 1) ∧
      hd.band = numAt f 51 1 ∧ hd.ulBand = numAt f 50 1 ∧
      hd.gain = signedAt f 54 1 ∧ hd.bandwidth = numAt f 55 1 := by
  obtain ⟨dt, -, -, -, e⟩ := readHdr_eq h ul f hf hb hr s hs
  have one : ∀ o, numAt f o 1 = (f.getD o 0).val := by intro o; simp [numAt]
  refine ⟨_, e, ?_, ?_, rfl, rfl, rfl, ?_, ?_, rfl, rfl⟩
  · simp only; split <;> rfl
  · simp only; split <;> rfl
  · simp only [one]
  · simp only [one]

example : ∃ hd, readHdr id none (demoHdr 2 16 16 0) = .ok hd ∧ hd.year = 2017 ∧ hd.gain = -1 ∧ hd.band = 88 := by
  obtain ⟨hd, e, h1, -, -, -, -, h2, -, h3, -⟩ := C73_date ieee_id none (demoHdr 2 16 16 0) (by decide +kernel)
    (by decide +kernel) (by decide +kernel) 100 (by decide +kernel)
  refine ⟨hd, e, ?_, ?_, ?_⟩
  · rw [h1]; decide +kernel
  · rw [h3]; decide +kernel
  · rw [h2]; decide +kernel

/-- **C73** (partial) If the year in the header is not 0, the tracking mode is 2 exactly for observations after 2011.
Missing: headers with year 0, see `C73_track_false`. -/
theorem C73_track_partial {rnd : ℚ → ℚ} (h : Ieee rnd) (ul : Option Int) (f : List Byte) (hf : 260 ≤ f.length)
    (hb : 0 < numAt f 68 1) (hr : 0 < numAt f 70 2) (s : ℚ) (hs : dblOfBits (numAt f 80 8) = .fin s)
    (hy : numAt f 60 2 ≠ 0) :
    ∃ hd, readHdr rnd ul f = .ok hd ∧ hd.trackMode = if 2011 < hd.year then 2 else 1 := by
  obtain ⟨dt, -, -, -, e⟩ := readHdr_eq h ul f hf hb hr s hs
  refine ⟨_, e, ?_⟩
  simp only [if_neg hy]
  by_cases k : 2011 < numAt f 60 2
  · rw [if_pos k, if_pos (by omega)]
  · rw [if_neg k, if_neg (by omega)]

example : ∃ hd, readHdr id none (demoHdr 2 16 16 2012) = .ok hd ∧ hd.trackMode = 2 := by
  obtain ⟨hd, e, h1⟩ := C73_track_partial ieee_id none (demoHdr 2 16 16 2012) (by decide +kernel)
    (by decide +kernel) (by decide +kernel) 100 (by decide +kernel) (by decide +kernel)
  obtain ⟨hd', e', h2, -⟩ := C73_date ieee_id none (demoHdr 2 16 16 2012) (by decide +kernel)
    (by decide +kernel) (by decide +kernel) 100 (by decide +kernel)
  rw [e] at e'
  cases e'
  refine ⟨hd, e, ?_⟩
  rw [h1, if_pos (by rw [h2]; decide +kernel)]

/-- **C73** is false for the files of station DSS-74, whose header has year 0: the year is corrected, but the tracking mode has
been chosen before that, and is 1 whatever the year. -/
theorem C73_track_false {rnd : ℚ → ℚ} (h : Ieee rnd) (ul : Option Int) (f : List Byte) (hf : 260 ≤ f.length)
    (hb : 0 < numAt f 68 1) (hr : 0 < numAt f 70 2) (s : ℚ) (hs : dblOfBits (numAt f 80 8) = .fin s)
    (hy : numAt f 60 2 = 0) :
    ∃ hd, readHdr rnd ul f = .ok hd ∧ hd.year = numAt f 76 2 ∧ hd.trackMode = 1 := by
  obtain ⟨dt, -, -, -, e⟩ := readHdr_eq h ul f hf hb hr s hs
  refine ⟨_, e, ?_, ?_⟩
  · simp only [if_pos hy]
  · simp only [hy]
    rfl

example : ∃ hd, readHdr id none (demoHdr 2 16 16 0) = .ok hd ∧ hd.year = 2017 ∧ hd.trackMode = 1 := by
  obtain ⟨hd, e, h1, h2⟩ := C73_track_false ieee_id none (demoHdr 2 16 16 0) (by decide +kernel)
    (by decide +kernel) (by decide +kernel) 100 (by decide +kernel) (by decide +kernel)
  exact ⟨hd, e, by rw [h1]; decide +kernel, h2⟩

/-! ### C72 -/

/-- The index that `argmin` returns. -/
theorem argmin_get (l : List ℚ) (hl : l ≠ []) :
    ∃ i, argmin l = .ok i ∧ ∃ x, l[i]? = some x ∧ (∀ (k : Nat) (y : ℚ), l[k]? = some y → x ≤ y) ∧
      (∀ (k : Nat) (y : ℚ), k < i → l[k]? = some y → x < y) := by
  -- the first index at which the minimum is attained
  have hex : ∃ i : Nat, ∃ x, l[i]? = some x ∧ ∀ y ∈ l, x ≤ y := by
    induction l with
    | nil => exact absurd rfl hl
    | cons a l ih =>
      cases l with
      | nil => exact ⟨0, a, rfl, by simp⟩
      | cons b l =>
        obtain ⟨i, x, h1, h2⟩ := ih (by simp)
        by_cases k : x < a
        · refine ⟨i + 1, x, by simpa using h1, ?_⟩
          intro y hy
          rcases List.mem_cons.1 hy with rfl | hy
          · exact k.le
          · exact h2 y hy
        · refine ⟨0, a, rfl, ?_⟩
          intro y hy
          rcases List.mem_cons.1 hy with rfl | hy
          · exact le_rfl
          · exact (not_lt.1 k).trans (h2 y hy)
  classical
  obtain ⟨x, h1, h2⟩ := Nat.find_spec hex
  have h3 : ∀ (k : Nat) (y : ℚ), k < Nat.find hex → l[k]? = some y → x < y := by
    intro k y hk hy
    by_contra c
    exact Nat.find_min hex hk ⟨y, hy, fun z hz => (not_lt.1 c).trans (h2 z hz)⟩
  exact ⟨_, argmin_spec l _ x h1 (fun k hk y hy => h3 k y hk hy) h2, x, h1,
    fun k y hy => h2 y (List.mem_of_getElem? hy), h3⟩

/-- The index of the sample nearest to a time, in units of samples. -/
theorem nearest (s dt v : ℚ) (hdt : 0 < dt) (N : ℕ) (hN : 0 < N) :
    ∃ i < N, argmin ((arange id s dt N).map fun x => |id (x - v)|) = .ok i ∧
      (∀ k < N, |(i : ℚ) - (v - s) / dt| ≤ |(k : ℚ) - (v - s) / dt|) ∧
      (∀ k < i, |(i : ℚ) - (v - s) / dt| < |(k : ℚ) - (v - s) / dt|) := by
  have get : ∀ k, k < N → ((arange id s dt N).map fun x => |id (x - v)|)[k]? =
      some (dt * |(k : ℚ) - (v - s) / dt|) := by
    intro k hk
    rw [List.getElem?_map, arange_get, if_pos hk]
    simp only [id, Option.map_some, Option.some.injEq]
    rw [← abs_of_pos hdt, ← abs_mul, abs_of_pos hdt]
    congr 1
    field_simp
    ring
  obtain ⟨i, e, x, h1, h2, h3⟩ := argmin_get ((arange id s dt N).map fun x => |id (x - v)|) (by
    intro k
    have := congrArg List.length k
    rw [List.length_map, arange_length] at this
    simp at this
    omega)
  have hi : i < N := by
    by_contra k
    rw [List.getElem?_eq_none (by rw [List.length_map, arange_length]; omega)] at h1
    cases h1
  rw [get i hi] at h1
  cases h1
  refine ⟨i, hi, e, ?_, ?_⟩
  · intro k hk
    exact le_of_mul_le_mul_left (h2 k _ (get k hk)) hdt
  · intro k hk
    exact lt_of_mul_lt_mul_left (h3 k _ hk (get k (by omega))) hdt.le

theorem numAt_append (a b : List Byte) (o n : Nat) (h : o + n ≤ a.length) : numAt (a ++ b) o n = numAt a o n := by
  induction n with
  | zero => rfl
  | succ n ih =>
    rw [numAt, numAt, ih (by omega)]
    simp [List.getD, List.getElem?_append_left (show o + n < a.length by omega)]

/-- The polynomial of block `j`. -/
def polyAt (l : List Block) (s dt : ℚ) (n j : Nat) : Poly :=
  let h := ((l[j]?).getD ⟨[], []⟩).hdr
  { stamp := s + dt * (j * n : ℕ), rfif := numAt h 74 2, ddc := numAt h 72 2, p1 := dblOfBits (numAt h 176 8)
    p2 := dblOfBits (numAt h 184 8), p3 := dblOfBits (numAt h 192 8) }

/-- The loop that reads the polynomials. -/
theorem readPolys_blocks (bias : Bool) (n : Nat) (hn : 0 < n) (l : List Block) (rest : List Byte) (s dt : ℚ)
    (h1 : ∀ b ∈ l, b.hdr.length = 260) (h2 : ∀ b ∈ l, b.data.length = n) (k i : Nat) (hk : i + k ≤ l.length) :
    readPolys (fileOf l rest) (sfduFmtOf bias n) n (arange id s dt (n * l.length)) (fun x => x) k i =
      .ok ((List.range' i k).map (polyAt l s dt n)) := by
  have hb : ∀ b ∈ l, b.bytes.length = 260 + 4 * n := fun b hb => block_length b n (h1 b hb) (h2 b hb)
  induction k generalizing i with
  | zero => rfl
  | succ k ih =>
    have hi : i < l.length := by omega
    have hmem : l[i] ∈ l := List.getElem_mem hi
    have hlen := hb _ hmem
    have e : unpackFrom (sfduFmtOf bias n) l[i].bytes =
        .ok (unpackAll (hdrFmt ++ (List.replicate n (if bias then [Fmt.H, Fmt.H] else [Fmt.h, Fmt.h])).flatten)
          l[i].bytes) := by
      unfold unpackFrom
      rw [calcsize_sfdu, if_neg (by omega), sfduFmtOf_eq]
    have na : ∀ o n, o + n ≤ 260 → numAt l[i].bytes o n = numAt l[i].hdr o n := by
      intro o n h
      rw [Block.bytes, numAt_append _ _ _ _ (by rw [h1 _ hmem]; exact h)]
    have I := fun name o m sg he => intField_of (int_at
      (List.replicate n (if bias then [Fmt.H, Fmt.H] else [Fmt.h, Fmt.h])).flatten l[i].bytes (by omega) name o m sg he)
    have D := fun name o he => dblField_of (dbl_at
      (List.replicate n (if bias then [Fmt.H, Fmt.H] else [Fmt.h, Fmt.h])).flatten l[i].bytes (by omega) name o he)
    have i1 := I "sh_rfif_lo" 74 2 false (by decide +kernel)
    have i2 := I "sh_ddc_lo" 72 2 false (by decide +kernel)
    have d1 := D "sh_schan_freq_poly_coef_1" 176 (by decide +kernel)
    have d2 := D "sh_schan_freq_poly_coef_2" 184 (by decide +kernel)
    have d3 := D "sh_schan_freq_poly_coef_3" 192 (by decide +kernel)
    rw [na _ _ (by decide)] at i1 i2 d1 d2 d3
    simp only [Bool.false_eq_true, if_false] at i1 i2
    have ht : (arange id s dt (n * l.length))[i * n]? = some (s + dt * (i * n : ℕ)) := by
      rw [arange_get, if_pos]
      · rfl
      · rw [Nat.mul_comm]
        exact Nat.mul_lt_mul_of_pos_left hi hn
    rw [readPolys, calcsize_sfdu, sfduBytes_block n l rest hb i l[i] (List.getElem?_eq_getElem hi)]
    rw [if_neg (by omega), e]
    simp only [bind, Except.bind, ht, ih (i + 1) (by omega), i1, i2, d1, d2, d3, List.range'_succ, List.map_cons]
    simp only [polyAt, List.getElem?_eq_getElem hi, Option.getD_some]

/-- The last element with a property. -/
theorem filter_last {α : Type} (g : Nat → α) (p : α → Bool) (a k J : Nat) (h1 : a ≤ J) (h2 : J < a + k) (hp : p (g J) = true)
    (hn : ∀ j, J < j → j < a + k → p (g j) = false) :
    (((List.range' a k).map g).filter p).getLast? = some (g J) := by
  have e : List.range' a k = List.range' a (J - a) ++ (J :: List.range' (J + 1) (a + k - J - 1)) := by
    have e1 : k = (J - a) + (a + k - J) := by omega
    have e2 : a + k - J = (a + k - J - 1) + 1 := by omega
    conv_lhs => rw [e1]
    rw [← List.range'_append_1, show a + (J - a) = J by omega]
    conv_lhs => rw [e2]
    rw [List.range'_succ]
  have e3 : ((List.range' (J + 1) (a + k - J - 1)).map g).filter p = [] := by
    rw [List.filter_eq_nil_iff]
    intro x hx
    obtain ⟨j, hj, rfl⟩ := List.mem_map.1 hx
    rw [List.mem_range'_1] at hj
    rw [hn j (by omega) (by omega)]
    decide
  rw [e, List.map_append, List.filter_append, List.map_cons, List.filter_cons_of_pos hp, e3, List.getLast?_append]
  rfl

theorem mapM_ok {α β : Type} (F : α → Py β) (G : α → β) (l : List α) (h : ∀ v ∈ l, F v = .ok (G v)) :
    l.mapM F = .ok (l.map G) := by
  induction l with
  | nil => rfl
  | cons a l ih =>
    rw [List.mapM_cons, h a List.mem_cons_self, ih fun v hv => h v (List.mem_cons_of_mem _ hv)]
    rfl

theorem mapM_error {α β : Type} (F : α → Py β) (e : Exn) (l : List α) (h : ∀ v ∈ l, (∃ y, F v = .ok y) ∨ F v = .error e)
    (hx : ∃ v ∈ l, F v = .error e) : l.mapM F = .error e := by
  induction l with
  | nil => obtain ⟨v, hv, -⟩ := hx; cases hv
  | cons a l ih =>
    rw [List.mapM_cons]
    rcases h a List.mem_cons_self with ⟨y, hy⟩ | hy
    · rw [hy]
      obtain ⟨v, hv, hv2⟩ := hx
      rcases List.mem_cons.1 hv with rfl | hv
      · rw [hy] at hv2; cases hv2
      · simp only [bind, Except.bind]
        rw [ih (fun v hv => h v (List.mem_cons_of_mem _ hv)) ⟨v, hv, hv2⟩]
    · rw [hy]
      rfl

/-- The reading of the polynomials for a list of times, in exact arithmetic. -/
theorem skyFreq_eq {X : Type} {n : Nat} {l : List Block} {rest : List Byte} (w : WellFormed n l rest)
    {rate : Nat} {s : ℚ} (t : Timed l rest n rate s) (hr : rate = 1 ∨ rate = 16 ∨ rate = 50)
    (hsize : (fileOf l rest).length < 2 ^ 53) (cplx : Int × Int → X) (dec : Decimate X) (fl : Flags) (bias : Bool)
    (ul : Option Int) (r : Reader X) (hc : construct id cplx dec fl bias ul (fileOf l rest) = .ok r)
    (fs : List ℚ) (lo hi : ℚ) (hlo : lo ∈ fs) (hlo2 : ∀ v ∈ fs, lo ≤ v) (hhi : hi ∈ fs) (hhi2 : ∀ v ∈ fs, v ≤ hi) :
    ∃ i < n * l.length, ∃ j < n * l.length,
      (∀ k < n * l.length, |(i : ℚ) - (lo - s) * (rate * 1000)| ≤ |(k : ℚ) - (lo - s) * (rate * 1000)|) ∧
      (∀ k < i, |(i : ℚ) - (lo - s) * (rate * 1000)| < |(k : ℚ) - (lo - s) * (rate * 1000)|) ∧
      (∀ k < n * l.length, |(j : ℚ) - (hi - s) * (rate * 1000)| ≤ |(k : ℚ) - (hi - s) * (rate * 1000)|) ∧
      skyFreq id (fun _ x => x) (fileOf l rest) bias r fs = fs.mapM fun f => (do
        let p ← pickPoly ((List.range' (i / n) (j / n + 1 - i / n)).map (polyAt l s (1 / (rate * 1000)) n)) f
        .ok (evalPoly id p f)) := by
  obtain ⟨dt, hd, d0, T, -, -, p1, p2, p3, p4, c⟩ := file_ok ieee_id w t hr hsize ul
  have hp : 0 < l.length := List.length_pos_iff.2 w.some
  have hN : 0 < n * l.length := Nat.mul_pos w.pos hp
  have hR : (0 : ℚ) < (rate : ℚ) * 1000 := by
    have : (0 : ℚ) < rate := by exact_mod_cast (show 0 < rate by omega)
    positivity
  have hdt : 0 < dt := by rw [d0]; simp only [id]; positivity
  have hdiv : ∀ v, (v - s) / dt = (v - s) * (rate * 1000) := by
    intro v; rw [d0]; simp only [id]; field_simp
  -- the reader
  obtain ⟨r1, r2⟩ : r.hdr = hd ∧ r.spmRaw = hd.spm := by
    rw [c cplx dec fl bias] at hc
    cases hdc : decimation fl rate with
    | none => rw [hdc] at hc; simp only [Except.ok.injEq] at hc; rw [← hc]; exact ⟨rfl, rfl⟩
    | some d =>
      rw [hdc] at hc
      simp only at hc
      cases hda : decimateAll dec d.1 ((decoded bias l).map cplx) with
      | error e => rw [hda] at hc; cases hc
      | ok iq => rw [hda] at hc; simp only [Except.bind, Except.ok.injEq] at hc; rw [← hc]; exact ⟨rfl, rfl⟩
  obtain ⟨i, hi1, ei, i2, i3⟩ := nearest s dt lo hdt _ hN
  obtain ⟨j, hj1, ej, j2, -⟩ := nearest s dt hi hdt _ hN
  simp only [hdiv] at i2 i3 j2
  refine ⟨i, hi1, j, hj1, i2, i3, j2, ?_⟩
  have hN2 : n * l.length < 2 ^ 53 := by
    have : ((n * l.length : ℕ) : ℚ) ≤ 2 ^ 45 := T.n_bound
    have : n * l.length ≤ 2 ^ 45 := by exact_mod_cast this
    omega
  have hnn : n ≤ n * l.length := Nat.le_mul_of_pos_right _ hp
  have hdivlt : ∀ x, x < n * l.length → x / n < l.length := by
    intro x hx
    rw [Nat.div_lt_iff_lt_mul w.pos, Nat.mul_comm]; exact hx
  have er : sfduRange id hd (arange id s dt (n * l.length)) lo hi = .ok (i / n, j / n) := by
    unfold sfduRange
    rw [if_neg (not_not.2 (by rw [p2]; exact hr)), ei, ej]
    simp only [bind, Except.bind, p3, p4]
    rw [if_neg (by have := w.pos; omega), pyInt_div ieee_id i n w.pos (by omega) (by omega),
      pyInt_div ieee_id j n w.pos (by omega) (by omega), if_neg (by have := hdivlt j hj1; omega)]
  unfold skyFreq
  rw [r1, r2, p1, p2, p3, if_neg (not_not.2 hr), pyMin_spec fs lo hlo hlo2, pyMax_spec fs hi hhi hhi2]
  simp only [bind, Except.bind, er]
  rw [readPolys_blocks bias n w.pos l rest s dt w.hdr w.data _ _
    (by have := hdivlt i hi1; have := hdivlt j hj1; omega)]
  simp only [d0, id]

theorem evalPoly_ok (l : List Block) (s dt : ℚ) (n j : Nat) (b : Block) (hb : l[j]? = some b) (v y : ℚ) (hv : 0 ≤ v)
    (h : SkyFreq b v y) : evalPoly id (polyAt l s dt n j) v = .fin y := by
  obtain ⟨p1, p2, p3, e1, e2, e3, rfl⟩ := h
  have hp : (pyInt v : ℚ) = ⌊v⌋ := by rw [pyInt, if_pos hv]
  simp only [evalPoly, polyAt, hb, Option.getD_some, e1, e2, e3, id, hp, Int.self_sub_floor]
  congr 1
  push_cast
  ring

/-- **C72** (partial; exact arithmetic) For every well-formed file whose polynomials are finite and every list of times not
before the start: the frequency at each time is that of the polynomial of the block in which the time lies.
Missing: lists whose first time lies less than half a sample before a block, see `C72_boundary_false`; rounding. -/
theorem C72_sky_partial {X : Type} {n : Nat} {l : List Block} {rest : List Byte} (w : WellFormed n l rest)
    {rate : Nat} {s : ℚ} (t : Timed l rest n rate s) (hr : rate = 1 ∨ rate = 16 ∨ rate = 50)
    (hsize : (fileOf l rest).length < 2 ^ 53) (cplx : Int × Int → X) (dec : Decimate X) (fl : Flags) (bias : Bool)
    (ul : Option Int) (r : Reader X) (hc : construct id cplx dec fl bias ul (fileOf l rest) = .ok r)
    (fs : List ℚ) (lo hi : ℚ) (hlo : lo ∈ fs) (hlo2 : ∀ v ∈ fs, lo ≤ v) (hhi : hi ∈ fs) (hhi2 : ∀ v ∈ fs, v ≤ hi)
    (hs : s ≤ lo)
    (hgap : ∀ j < l.length, ¬ (s + (j * n - 1 / 2) / (rate * 1000) < lo ∧ lo < s + j * n / (rate * 1000)))
    (F : Block → ℚ → ℚ) (hF : ∀ b ∈ l, ∀ v, SkyFreq b v (F b v)) :
    ∃ ys, skyFreq id (fun _ x => x) (fileOf l rest) bias r fs = .ok ys ∧ ys.length = fs.length ∧
      ∀ (i : Nat) (v : ℚ), fs[i]? = some v →
        ∃ b, l[blockOf s (rate * 1000) n l.length v]? = some b ∧ ys[i]? = some (.fin (F b v)) := by
  obtain ⟨i, hi1, j, hj1, i2, i3, j2, e⟩ := skyFreq_eq w t hr hsize cplx dec fl bias ul r hc fs lo hi hlo hlo2 hhi hhi2
  have hp : 0 < l.length := List.length_pos_iff.2 w.some
  have hn := w.pos
  have hnq : (0 : ℚ) < n := by exact_mod_cast hn
  have hR : (0 : ℚ) < (rate : ℚ) * 1000 := by
    have : (0 : ℚ) < rate := by exact_mod_cast (show 0 < rate by omega)
    positivity
  generalize hRe : (rate : ℚ) * 1000 = R at *
  have hdivlt : ∀ x, x < n * l.length → x / n < l.length := by
    intro x hx
    rw [Nat.div_lt_iff_lt_mul w.pos, Nat.mul_comm]; exact hx
  have hia := hdivlt i hi1
  have hjb := hdivlt j hj1
  -- the first block begins before the first time
  have first : ((i / n * n : ℕ) : ℚ) ≤ (lo - s) * R := by
    by_contra hc
    have hc := not_le.1 hc
    have h1 : i / n * n ≤ i := Nat.div_mul_le_self i n
    have hu : 0 ≤ (lo - s) * R := mul_nonneg (by linarith) hR.le
    have hpos : 0 < i / n * n := by
      rcases Nat.eq_zero_or_pos (i / n * n) with z | z
      · rw [z] at hc; norm_num at hc; linarith
      · exact z
    have h3 := i3 (i / n * n - 1) (by omega)
    have q1 : ((i / n * n : ℕ) : ℚ) ≤ i := by exact_mod_cast h1
    have q2 : ((i / n * n - 1 : ℕ) : ℚ) = ((i / n * n : ℕ) : ℚ) - 1 := by
      rw [Nat.cast_sub (by omega)]; norm_num
    rw [q2, abs_of_nonneg (by linarith)] at h3
    have h4 : (lo - s) * R > ((i / n * n : ℕ) : ℚ) - 1 / 2 := by
      rcases le_or_gt 0 (((i / n * n : ℕ) : ℚ) - 1 - (lo - s) * R) with c | c
      · rw [abs_of_nonneg c] at h3; linarith
      · rw [abs_of_neg c] at h3; linarith
    refine hgap (i / n) hia ⟨?_, ?_⟩
    · have : ((i / n : ℕ) : ℚ) * n - 1 / 2 < (lo - s) * R := by push_cast at h4 ⊢; linarith
      have := (div_lt_iff₀ hR).2 this
      linarith
    · have : (lo - s) * R < ((i / n : ℕ) : ℚ) * n := by push_cast at hc ⊢; linarith
      have := (lt_div_iff₀ hR).2 this
      linarith
  -- the block of a time
  have main : ∀ v ∈ fs, ∃ b, l[blockOf s R n l.length v]? = some b ∧
      (pickPoly ((List.range' (i / n) (j / n + 1 - i / n)).map (polyAt l s (1 / R) n)) v).bind
        (fun p => .ok (evalPoly id p v)) = .ok (Dbl.fin (F b v)) := by
    intro v hv
    have hvlo := hlo2 v hv
    have hvhi := hhi2 v hv
    have hv0 : 0 ≤ v := by linarith [t.nonneg]
    have hu : 0 ≤ (v - s) * R := mul_nonneg (by linarith) hR.le
    have huq : 0 ≤ (v - s) * R / n := by positivity
    obtain ⟨J, hJ⟩ : ∃ J, J = blockOf s R n l.length v := ⟨_, rfl⟩
    have hJm : J < l.length := by rw [hJ, blockOf]; omega
    have hfl : ((⌊(v - s) * R / n⌋.toNat : ℕ) : ℚ) = ⌊(v - s) * R / n⌋ := by
      have : (0 : ℤ) ≤ ⌊(v - s) * R / n⌋ := Int.floor_nonneg.2 huq
      exact_mod_cast Int.toNat_of_nonneg this
    have hJle : ((J * n : ℕ) : ℚ) ≤ (v - s) * R := by
      have : (J : ℚ) ≤ (v - s) * R / n := by
        have h1 : (J : ℚ) ≤ ((⌊(v - s) * R / n⌋.toNat : ℕ) : ℚ) := by
          rw [hJ, blockOf]; exact_mod_cast Nat.min_le_right _ _
        rw [hfl] at h1
        exact h1.trans (Int.floor_le _)
      rw [le_div_iff₀ hnq] at this
      push_cast; exact this
    have hJlt : ∀ k, J < k → k < l.length → (v - s) * R < ((k * n : ℕ) : ℚ) := by
      intro k hk hkm
      have hJf : J = ⌊(v - s) * R / n⌋.toNat := by rw [hJ, blockOf]; rw [hJ, blockOf] at hk; omega
      have h1 := Int.lt_floor_add_one ((v - s) * R / n)
      rw [← hfl, ← hJf] at h1
      have h2 : (J : ℚ) + 1 ≤ k := by exact_mod_cast hk
      have : (v - s) * R / n < k := by linarith
      rw [div_lt_iff₀ hnq] at this
      push_cast; exact this
    have haJ : i / n ≤ J := by
      by_contra c
      have := hJlt (i / n) (by omega) hia
      have hmono : (lo - s) * R ≤ (v - s) * R := mul_le_mul_of_nonneg_right (by linarith) hR.le
      linarith
    have hJb : J ≤ j / n := by
      rw [Nat.le_div_iff_mul_le hn]
      by_contra c
      have c : j < J * n := by omega
      have hmono : (v - s) * R ≤ (hi - s) * R := mul_le_mul_of_nonneg_right (by linarith) hR.le
      have hlt : J * n < n * l.length := by rw [Nat.mul_comm]; exact Nat.mul_lt_mul_of_pos_left hJm hn
      have h2 := j2 (J * n) hlt
      have q : (j : ℚ) < ((J * n : ℕ) : ℚ) := by exact_mod_cast c
      rw [abs_of_nonpos (by linarith), abs_of_nonpos (by linarith)] at h2
      linarith
    have hst : ∀ k, (polyAt l s (1 / R) n k).stamp = s + ((k * n : ℕ) : ℚ) / R := by
      intro k; simp only [polyAt]; ring
    have pick : pickPoly ((List.range' (i / n) (j / n + 1 - i / n)).map (polyAt l s (1 / R) n)) v =
        .ok (polyAt l s (1 / R) n J) := by
      unfold pickPoly
      rw [filter_last (polyAt l s (1 / R) n) _ _ _ J haJ (by omega)]
      · simp only [hst, decide_eq_true_eq]
        have := (div_le_iff₀ hR).2 hJle
        linarith
      · intro k h1 h2
        simp only [hst, decide_eq_false_iff_not, not_le]
        have := (lt_div_iff₀ hR).2 (hJlt k h1 (by omega))
        linarith
    refine ⟨l[J], by rw [← hJ]; exact List.getElem?_eq_getElem hJm, ?_⟩
    rw [pick]
    simp only [Except.bind]
    rw [evalPoly_ok l s (1 / R) n J l[J] (List.getElem?_eq_getElem hJm) v _ hv0 (hF _ (List.getElem_mem hJm) v)]
  have G : ∀ v ∈ fs, (do
      let p ← pickPoly ((List.range' (i / n) (j / n + 1 - i / n)).map (polyAt l s (1 / R) n)) v
      .ok (evalPoly id p v) : Py Dbl) =
      .ok (Dbl.fin (F ((l[blockOf s R n l.length v]?).getD ⟨[], []⟩) v)) := by
    intro v hv
    obtain ⟨b, hb, h⟩ := main v hv
    rw [hb]
    exact h
  refine ⟨_, e.trans (mapM_ok _ _ fs G), by rw [List.length_map], ?_⟩
  intro k v hk
  obtain ⟨b, hb, -⟩ := main v (List.mem_of_getElem? hk)
  refine ⟨b, hb, ?_⟩
  rw [List.getElem?_map, hk]
  simp only [Option.map_some, hb, Option.getD_some]

/-- **C72** is false: whenever the first of the times lies before a block, but by less than half a sample, the polynomial of the
preceding block is not read, and the function ends in an `IndexError` (even in exact arithmetic). -/
theorem C72_boundary_false {X : Type} {n : Nat} {l : List Block} {rest : List Byte} (w : WellFormed n l rest)
    {rate : Nat} {s : ℚ} (t : Timed l rest n rate s) (hr : rate = 1 ∨ rate = 16 ∨ rate = 50)
    (hsize : (fileOf l rest).length < 2 ^ 53) (cplx : Int × Int → X) (dec : Decimate X) (fl : Flags) (bias : Bool)
    (ul : Option Int) (r : Reader X) (hc : construct id cplx dec fl bias ul (fileOf l rest) = .ok r)
    (fs : List ℚ) (lo hi : ℚ) (hlo : lo ∈ fs) (hlo2 : ∀ v ∈ fs, lo ≤ v) (hhi : hi ∈ fs) (hhi2 : ∀ v ∈ fs, v ≤ hi)
    (j : Nat) (hj : j < l.length) (g1 : s + (j * n - 1 / 2) / (rate * 1000) < lo) (g2 : lo < s + j * n / (rate * 1000)) :
    skyFreq id (fun _ x => x) (fileOf l rest) bias r fs = .error .index := by
  obtain ⟨i, hi1, j', hj1, i2, -, -, e⟩ := skyFreq_eq w t hr hsize cplx dec fl bias ul r hc fs lo hi hlo hlo2 hhi hhi2
  have hn := w.pos
  have hR : (0 : ℚ) < (rate : ℚ) * 1000 := by
    have : (0 : ℚ) < rate := by exact_mod_cast (show 0 < rate by omega)
    positivity
  generalize hRe : (rate : ℚ) * 1000 = R at *
  have u1 : (j : ℚ) * n - 1 / 2 < (lo - s) * R := by
    rw [← div_lt_iff₀ hR]; linarith
  have u2 : (lo - s) * R < (j : ℚ) * n := by
    rw [← lt_div_iff₀ hR]; linarith
  have hlt : j * n < n * l.length := by rw [Nat.mul_comm]; exact Nat.mul_lt_mul_of_pos_left hj hn
  have h2 := i2 (j * n) hlt
  have hij : i = j * n := by
    push_cast at h2
    rw [abs_of_nonneg (a := (j : ℚ) * n - (lo - s) * R) (by linarith), abs_le] at h2
    have a1 : (i : ℚ) < ((j * n + 1 : ℕ) : ℚ) := by push_cast; linarith [h2.2]
    have a2 : ((j * n : ℕ) : ℚ) < ((i + 1 : ℕ) : ℚ) := by push_cast; linarith [h2.1]
    have b1 : i < j * n + 1 := by exact_mod_cast a1
    have b2 : j * n < i + 1 := by exact_mod_cast a2
    omega
  have hin : i / n = j := by rw [hij, Nat.mul_div_cancel _ hn]
  rw [e]
  refine mapM_error _ _ _ ?_ ⟨lo, hlo, ?_⟩
  · intro v _
    unfold pickPoly
    split
    · exact .inr rfl
    · exact .inl ⟨_, rfl⟩
  · have pick : pickPoly ((List.range' (i / n) (j' / n + 1 - i / n)).map (polyAt l s (1 / R) n)) lo = .error .index := by
      unfold pickPoly
      have : (((List.range' (i / n) (j' / n + 1 - i / n)).map (polyAt l s (1 / R) n)).filter
          fun p => decide (p.stamp ≤ lo)) = [] := by
        rw [List.filter_eq_nil_iff]
        intro p hp
        obtain ⟨k, hk, rfl⟩ := List.mem_map.1 hp
        rw [List.mem_range'_1, hin] at hk
        rw [decide_eq_true_eq, not_le]
        change lo < s + 1 / R * ((k * n : ℕ) : ℚ)
        have q : ((j : ℕ) : ℚ) * n ≤ ((k * n : ℕ) : ℚ) := by exact_mod_cast Nat.mul_le_mul_right n hk.1
        have q2 : (j : ℚ) * n / R ≤ ((k * n : ℕ) : ℚ) / R := div_le_div_of_nonneg_right q hR.le
        have q3 : 1 / R * ((k * n : ℕ) : ℚ) = ((k * n : ℕ) : ℚ) / R := by ring
        rw [q3]
        linarith
      rw [this]
      rfl
    rw [pick]
    rfl

/-- The sky frequency of a block whose polynomial is zero. -/
theorem demo_sky (b : Block) (hb : b ∈ demoBlocks 1) (v : ℚ) : SkyFreq b v 0 := by
  have : ∀ b ∈ demoBlocks 1, dblOfBits (numAt b.hdr 176 8) = .fin 0 ∧ dblOfBits (numAt b.hdr 184 8) = .fin 0 ∧
      dblOfBits (numAt b.hdr 192 8) = .fin 0 ∧ numAt b.hdr 74 2 = 0 ∧ numAt b.hdr 72 2 = 0 := by decide +kernel
  obtain ⟨h1, h2, h3, h4, h5⟩ := this b hb
  exact ⟨0, 0, 0, h1, h2, h3, by rw [h4, h5]; simp⟩

example : ∃ r : Reader (Int × Int), construct id id (fun _ l => .ok l) noFlags false none (fileOf (demoBlocks 1) [9]) = .ok r ∧
    (∃ ys, skyFreq id (fun _ x => x) (fileOf (demoBlocks 1) [9]) false r [100 + 1 / 1000, 100 + 5 / 2000] = .ok ys ∧ ys.length = 2) ∧
    skyFreq id (fun _ x => x) (fileOf (demoBlocks 1) [9]) false r [100 + 7 / 4000] = .error .index := by
  obtain ⟨r, e, -⟩ := C69_samples ieee_id id (fun _ l => .ok l) noFlags none (demo_wellFormed 1 (by decide))
    (demo_timed 1 (by decide)) (by decide) (by decide +kernel) (by decide)
  refine ⟨r, e, ?_, ?_⟩
  · obtain ⟨ys, h1, h2, -⟩ := C72_sky_partial (demo_wellFormed 1 (by decide)) (demo_timed 1 (by decide)) (by decide)
      (by decide +kernel) _ _ _ _ _ r e [100 + 1 / 1000, 100 + 5 / 2000] (100 + 1 / 1000) (100 + 5 / 2000) (by simp)
      (by simp; norm_num) (by simp) (by simp; norm_num) (by norm_num)
      (by
        intro j hj
        have : j = 0 ∨ j = 1 := by simp [demoBlocks] at hj; omega
        rcases this with rfl | rfl <;> norm_num)
      (fun _ _ => 0) (fun b hb v => demo_sky b hb v)
    exact ⟨ys, h1, h2⟩
  · exact C72_boundary_false (demo_wellFormed 1 (by decide)) (demo_timed 1 (by decide)) (by decide)
      (by decide +kernel) _ _ _ _ _ r e [100 + 7 / 4000] (100 + 7 / 4000) (100 + 7 / 4000) (by simp) (by simp) (by simp)
      (by simp) 1 (by decide) (by norm_num) (by norm_num)

end Verif.Rsr
