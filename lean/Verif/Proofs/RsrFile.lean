import Verif.Proofs.RsrData

/-!
# The constructor on well-formed RSR files
-/
namespace Verif.Rsr
open Spec

theorem numAt_lt (f : List Byte) (o n : Nat) : numAt f o n < 256 ^ n := by
  induction n with
  | zero => simp [numAt]
  | succ n ih =>
    have := (f.getD (o + n) 0).isLt
    rw [numAt, Nat.pow_succ]; omega

/-- The samples of the file as the reader represents them. -/
def decoded (bias : Bool) (l : List Block) : List (Int × Int) :=
  (l.flatMap Block.data).map fun p =>
    if bias then (biasWord (rawWord true p.1), biasWord (rawWord true p.2)) else (rawWord false p.1, rawWord false p.2)

theorem decoded_length (bias : Bool) (n : Nat) (l : List Block) (h : ∀ b ∈ l, b.data.length = n) :
    (decoded bias l).length = n * l.length := by
  rw [decoded, List.length_map]
  induction l with
  | nil => rfl
  | cons b l ih =>
    rw [List.flatMap_cons, List.length_append, h b List.mem_cons_self, ih fun b hb => h b (List.mem_cons_of_mem _ hb),
      List.length_cons]
    ring

theorem readIQ_ok (bias : Bool) (n : Nat) (hn : 0 < n) (l : List Block) (rest : List Byte) (h0 : l ≠ [])
    (h1 : ∀ b ∈ l, b.hdr.length = 260) (h2 : ∀ b ∈ l, b.data.length = n) :
    readIQ (fileOf l rest) bias n (l.length - 1) = .ok (decoded bias l) := by
  have hp : 0 < l.length := List.length_pos_iff.2 h0
  unfold readIQ
  rw [readLoop_blocks bias n hn l rest h1 h2 _ 0 (by omega)]
  simp only [bind, Except.bind, List.nil_append, List.drop_zero]
  cases bias
  · simp only [decoded, List.map_flatMap, Bool.false_eq_true, if_false]
  · simp only [decoded, if_true, List.map_flatMap, List.map_map]
    rfl

/-- The constructor after the header has been read. -/
theorem hdr_ok {rnd : ℚ → ℚ} (h : Ieee rnd) (f : List Byte) {rate n m : Nat} {s : ℚ}
    (hr : rate = 1 ∨ rate = 16 ∨ rate = 50) (hlen : 260 ≤ f.length) (hsize : f.length < 2 ^ 53)
    (hrate : numAt f 70 2 = rate) (hstart : dblOfBits (numAt f 80 8) = .fin s) (hs0 : 0 ≤ s)
    (hstop : s + ((n * m : ℕ) : ℚ) / ((rate : ℚ) * 1000) ≤ 2 ^ 19)
    (hbits : 0 < numAt f 68 1) (hn : 4 * numAt f 258 2 / numAt f 68 1 = n) (hn0 : 0 < n)
    (hm : f.length / (numAt f 12 8 + 20) = m) (hm0 : 0 < m) (ul : Option Int) :
    ∃ (dt : ℚ) (hd : Hdr), dt = rnd (1 / (rate * 1000)) ∧ Times dt (rate * 1000) s (n * m) ∧ rnd s = s ∧
      readHdr rnd ul f = .ok hd ∧
      hd.spm = arange rnd s dt (n * m) ∧ hd.rate = rate ∧ hd.nPer = n ∧ hd.nSfdu = m ∧
      ∀ {X : Type} (cplx : Int × Int → X) (dec : Decimate X) (fl : Flags) (bias : Bool),
        construct rnd cplx dec fl bias ul f =
          (readIQ f bias n (m - 1)).bind fun iq =>
          match decimation fl rate with
          | none => .ok { hdr := hd, spmRaw := hd.spm, spm := hd.spm, iq := iq.map cplx }
          | some (qs, hz) => (decimateAll dec qs (iq.map cplx)).bind fun iq =>
              .ok { hdr := hd, spmRaw := hd.spm, spm := arange rnd s (rnd (1 / hz)) iq.length, iq := iq } := by
  have hr0 : 0 < rate := by omega
  have hbl : numAt f 258 2 < 65536 := numAt_lt f 258 2
  have hbb : numAt f 12 8 + 20 ≤ 2 ^ 70 := by
    have := numAt_lt f 12 8
    have k : (256 : ℕ) ^ 8 + 20 ≤ 2 ^ 70 := by norm_num
    exact (Nat.add_le_add_right this.le 20).trans k
  have hn2 : n ≤ 4 * 65536 := by
    rw [← hn]
    exact (Nat.div_le_self _ _).trans (by omega)
  obtain ⟨dt, d0, d1, d2, e⟩ := readHdr_eq h ul f hlen hbits (by rw [hrate]; exact hr0) s hstart
  rw [hrate] at d0 d1 d2
  have hs : rnd s = s := h.double _ _ hstart
  have T : Times dt (rate * 1000) s (n * m) := by
    refine ⟨?_, ?_, d1, d2, hs0, hstop⟩
    · have : (1 : ℚ) ≤ rate := by exact_mod_cast hr0
      linarith
    · have : (rate : ℚ) ≤ 50 := by exact_mod_cast (show rate ≤ 50 by omega)
      linarith
  have n2 : nSfdu rnd f.length (numAt f 12 8 + 20) = m := by
    unfold nSfdu
    rw [pyInt_div h _ _ (Nat.succ_pos _) hsize hbb, hm]
  rw [hn, n2, nPoints_ok h T (Nat.mul_pos hn0 hm0), hrate] at e
  obtain ⟨hd, e, p1, p2, p3, p4⟩ : ∃ hd, readHdr rnd ul f = .ok hd ∧
      hd.spm = arange rnd s dt (n * m) ∧ hd.rate = rate ∧ hd.nPer = n ∧ hd.nSfdu = m :=
    ⟨_, e, rfl, rfl, rfl, rfl⟩
  refine ⟨dt, hd, d0, T, hs, e, p1, p2, p3, p4, ?_⟩
  intro X cplx dec fl bias
  obtain ⟨m1, m2, m3⟩ := sfduRange_all h hd hn0 hm0 T hs p3 p4 (by rw [p2]; exact hr) (by omega)
  have hhead : (arange rnd s dt (n * m)).headD 0 = s := by
    have := arange_get rnd s dt (n * m) 0
    rw [if_pos (Nat.mul_pos hn0 hm0)] at this
    rw [List.headD_eq_head?_getD, List.head?_eq_getElem?, this]
    simp [h.zero, hs]
  unfold construct
  rw [e]
  simp only [bind, Except.bind, p1, p2, p3, m1, m2, m3, hhead]
  generalize readIQ f bias n (m - 1) = q
  cases q with
  | error e => rfl
  | ok iq =>
    simp only
    cases decimation fl rate with
    | none => rfl
    | some d => rfl

/-- The header and the samples of a well-formed file. -/
theorem file_ok {rnd : ℚ → ℚ} (h : Ieee rnd) {n : Nat} {l : List Block} {rest : List Byte} (w : WellFormed n l rest)
    {rate : Nat} {s : ℚ} (t : Timed l rest n rate s) (hr : rate = 1 ∨ rate = 16 ∨ rate = 50)
    (hsize : (fileOf l rest).length < 2 ^ 53) (ul : Option Int) :
    ∃ (dt : ℚ) (hd : Hdr), dt = rnd (1 / (rate * 1000)) ∧ Times dt (rate * 1000) s (n * l.length) ∧ rnd s = s ∧
      readHdr rnd ul (fileOf l rest) = .ok hd ∧
      hd.spm = arange rnd s dt (n * l.length) ∧ hd.rate = rate ∧ hd.nPer = n ∧ hd.nSfdu = l.length ∧
      ∀ {X : Type} (cplx : Int × Int → X) (dec : Decimate X) (fl : Flags) (bias : Bool),
        construct rnd cplx dec fl bias ul (fileOf l rest) =
          match decimation fl rate with
          | none => .ok { hdr := hd, spmRaw := hd.spm, spm := hd.spm, iq := (decoded bias l).map cplx }
          | some (qs, hz) => (decimateAll dec qs ((decoded bias l).map cplx)).bind fun iq =>
              .ok { hdr := hd, spmRaw := hd.spm, spm := arange rnd s (rnd (1 / hz)) iq.length, iq := iq } := by
  have hp : 0 < l.length := List.length_pos_iff.2 w.some
  have hb : ∀ b ∈ l, b.bytes.length = 260 + 4 * n := fun b hb => block_length b n (w.hdr b hb) (w.data b hb)
  have hl := file_length n l rest hb
  have hmul : 1 * (260 + 4 * n) ≤ l.length * (260 + 4 * n) := Nat.mul_le_mul_right _ hp
  obtain ⟨dt, hd, d0, T, hs, e, p1, p2, p3, p4, c⟩ := hdr_ok h (fileOf l rest) (n := n) (m := l.length) hr (by omega) hsize
    t.hrate t.start t.nonneg t.stop (by rw [w.bits]; decide) (by rw [w.bytes, w.bits]; omega) w.pos
    (by rw [w.length, show 240 + 4 * n + 20 = 260 + 4 * n by omega, hl,
      Nat.add_comm, Nat.add_mul_div_right _ _ (by omega), Nat.div_eq_of_lt w.tail, Nat.zero_add]) hp ul
  refine ⟨dt, hd, d0, T, hs, e, p1, p2, p3, p4, ?_⟩
  intro X cplx dec fl bias
  rw [c cplx dec fl bias, readIQ_ok bias n w.pos l rest w.some w.hdr w.data]
  rfl

end Verif.Rsr
