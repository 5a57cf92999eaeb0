import Verif.Props.C68

/-!
# C70, C71: times and decimation of RSR files
-/
namespace Verif.Rsr
open Spec

/-! ### C70 -/

/-- The time of a sample is near its ideal time. -/
theorem arange_ideal {rnd : ℚ → ℚ} (h : Ieee rnd) {dt R s : ℚ} {n : ℕ} (t : Times dt R s n) (hs : rnd s = s) (k : ℕ)
    (hk : k ≤ n) : |rnd (s + rnd (dt * k)) - (s + k / R)| ≤ 1 / 2 ^ 30 := by
  have h1 := abs_le.1 (arange_near h t hs k hk)
  have hR : (0 : ℚ) < R := by linarith [t.r1]
  have hkn : (k : ℚ) ≤ n := by exact_mod_cast hk
  have h2 : (k : ℚ) / R ≤ 2 ^ 19 := le_trans (div_le_div_of_nonneg_right hkn hR.le) t.div_bound
  have h0 : (0 : ℚ) ≤ (k : ℚ) / R := by positivity
  have e : dt * k - k / R = (dt * R - 1) * (k / R) := by field_simp
  have u : (dt * R - 1) * (k / R) ≤ 1 / 2 ^ 53 * (k / R) := mul_le_mul_of_nonneg_right (by linarith [t.d1]) h0
  have l : -(1 / 2 ^ 53) * ((k : ℚ) / R) ≤ (dt * R - 1) * (k / R) :=
    mul_le_mul_of_nonneg_right (by linarith [t.d2]) h0
  have v : (1 : ℚ) / 2 ^ 53 * (k / R) ≤ 1 / 2 ^ 53 * 2 ^ 19 := mul_le_mul_of_nonneg_left h2 (by norm_num)
  have c : (1 : ℚ) / 2 ^ 53 * 2 ^ 19 ≤ 1 / 2 ^ 31 := by norm_num
  have c2 : (1 : ℚ) / 2 ^ 31 + 1 / 2 ^ 31 = 1 / 2 ^ 30 := by norm_num
  rw [abs_le]
  constructor <;> linarith [h1.1, h1.2]

theorem arange_length (rnd : ℚ → ℚ) (s dt : ℚ) (n : ℕ) : (arange rnd s dt n).length = n := by
  rw [arange, List.length_map, List.length_range]

theorem samples_length {n : Nat} {l : List Block} {rest : List Byte} (w : WellFormed n l rest) :
    (samples l).length = n * l.length := by
  have := decoded_length false n l w.data
  rwa [decoded_false w] at this

/-- **C70** For every well-formed file read without decimation, and whatever IEEE rounding does: there are as many times as
samples, time k is within 2⁻³⁰ s of the start plus k sampling intervals, and the times increase strictly. -/
theorem C70_times {X : Type} {rnd : ℚ → ℚ} (h : Ieee rnd) (cplx : Int × Int → X) (dec : Decimate X) (fl : Flags)
    (bias : Bool) (ul : Option Int) {n : Nat} {l : List Block} {rest : List Byte} (w : WellFormed n l rest)
    {rate : Nat} {s : ℚ} (t : Timed l rest n rate s) (hr : rate = 1 ∨ rate = 16 ∨ rate = 50)
    (hsize : (fileOf l rest).length < 2 ^ 53) (hd : requested fl rate = []) :
    ∃ r, construct rnd cplx dec fl bias ul (fileOf l rest) = .ok r ∧
      r.spm.length = (samples l).length ∧ r.iq.length = (samples l).length ∧
      (∀ (k : Nat) (x : ℚ), r.spm[k]? = some x → |x - (s + k / (rate * 1000))| ≤ 1 / 2 ^ 30) ∧
      (∀ (j k : Nat) (x y : ℚ), j < k → r.spm[j]? = some x → r.spm[k]? = some y → x < y) := by
  obtain ⟨dt, hd', -, T, hs, -, p1, -, -, -, c⟩ := file_ok h w t hr hsize ul
  rw [c cplx dec fl bias, decimation_none fl rate hd]
  refine ⟨_, rfl, ?_, ?_, ?_, ?_⟩
  · rw [samples_length w]
    simp only [p1, arange_length]
  · simp only [List.length_map, decoded_length bias n l w.data, samples_length w]
  · intro k x hx
    simp only [p1, arange_get] at hx
    split at hx
    · rename_i hk
      cases hx
      exact arange_ideal h T hs k hk.le
    · cases hx
  · intro j k x y hjk hx hy
    simp only [p1, arange_get] at hx hy
    split at hx
    · split at hy
      · rename_i hk
        cases hx; cases hy
        have := arange_lt h T hs j k hjk hk.le
        have w : (0 : ℚ) < 1 / 2 ^ 27 := by norm_num
        linarith
      · cases hy
    · cases hx

example : ∃ r, construct id id (fun _ l => .ok l) noFlags true none (fileOf (demoBlocks 50) [9]) = .ok r ∧
    r.spm.length = 4 := by
  obtain ⟨r, e, h, -⟩ := C70_times ieee_id id (fun _ l => .ok l) noFlags true none (demo_wellFormed 50 (by decide))
    (demo_timed 50 (by decide)) (by decide) (by decide +kernel) (by decide)
  exact ⟨r, e, h⟩

/-! ### C71 -/

/-- What is known of `scipy.signal.decimate`: the number of elements left. -/
def DecimateLaw {X : Type} (dec : Decimate X) : Prop :=
  ∀ q l, 0 < q → ∃ l', dec q l = .ok l' ∧ l'.length = (l.length + q - 1) / q

theorem decimateAll_eq {X : Type} (dec : Decimate X) (qs : List Nat) (l : List X) :
    decimateAll dec qs l = qs.foldlM (fun x q => dec q x) l := by
  induction qs generalizing l with
  | nil => rfl
  | cons q qs ih =>
    rw [decimateAll, List.foldlM_cons]
    congr 1
    funext x
    exact ih x

theorem ceil_ceil (a b N : Nat) (ha : 0 < a) (hb : 0 < b) :
    ((N + a - 1) / a + b - 1) / b = (N + a * b - 1) / (a * b) := by
  rcases Nat.eq_zero_or_pos N with rfl | hN
  · have h1 : (0 + a - 1) / a = 0 := Nat.div_eq_of_lt (by omega)
    have h2 : (0 + a * b - 1) / (a * b) = 0 := Nat.div_eq_of_lt (by have := Nat.mul_pos ha hb; omega)
    rw [h1, h2]
    exact Nat.div_eq_of_lt (by omega)
  · have e1 : (N + a - 1) / a = (N - 1) / a + 1 := by
      rw [show N + a - 1 = N - 1 + a by omega, Nat.add_div_right _ ha]
    have e2 : (N + a * b - 1) / (a * b) = (N - 1) / (a * b) + 1 := by
      rw [show N + a * b - 1 = N - 1 + a * b by omega, Nat.add_div_right _ (Nat.mul_pos ha hb)]
    have e3 : ∀ x : Nat, x + 1 + b - 1 = x + b := by intro x; omega
    rw [e1, e2, e3, Nat.add_div_right _ hb, Nat.div_div_eq_div_mul]

theorem decimateAll_length {X : Type} {dec : Decimate X} (hd : DecimateLaw dec) (qs : List Nat) (l : List X)
    (hq : ∀ q ∈ qs, 0 < q) :
    ∃ l', decimateAll dec qs l = .ok l' ∧ l'.length = (l.length + qs.prod - 1) / qs.prod := by
  induction qs generalizing l with
  | nil => exact ⟨l, rfl, by simp⟩
  | cons q qs ih =>
    obtain ⟨l1, e1, h1⟩ := hd q l (hq q List.mem_cons_self)
    obtain ⟨l2, e2, h2⟩ := ih l1 fun p hp => hq p (List.mem_cons_of_mem _ hp)
    refine ⟨l2, ?_, ?_⟩
    · rw [decimateAll, e1]; exact e2
    · have hp : 0 < qs.prod := by
        clear ih h2 e2
        induction qs with
        | nil => simp
        | cons p qs ih =>
          rw [List.prod_cons]
          exact Nat.mul_pos (hq p (by simp)) (ih fun x hx => hq x (by
            rcases List.mem_cons.1 hx with rfl | hx
            · exact List.mem_cons_self
            · exact List.mem_cons_of_mem _ (List.mem_cons_of_mem _ hx)))
      rw [h2, h1, List.prod_cons, ceil_ceil _ _ _ (hq q List.mem_cons_self) hp]

/-- The table of decimations: product of the factors, size of the factors, highest rate. -/
theorem decimation_some (fl : Flags) (rate : Nat) (qs : List Nat) (hz : Nat) (h : decimation fl rate = some (qs, hz)) :
    finalRate fl rate = hz ∧ qs.prod * hz = rate * 1000 ∧ (∀ q ∈ qs, 2 ≤ q ∧ q ≤ 5) ∧ 1000 ≤ hz ∧ hz ≤ 25000 := by
  obtain ⟨a, b, c, d, e, f, g, i⟩ := fl
  unfold finalRate requested
  unfold decimation at h
  by_cases h50 : rate = 50
  · subst h50
    cases a <;> cases b <;> cases c <;> cases d <;> simp at h <;> obtain ⟨rfl, rfl⟩ := h <;>
      exact ⟨rfl, by decide, by decide, by decide, by decide⟩
  · rw [if_neg h50]
    by_cases h16 : rate = 16
    · subst h16
      cases e <;> cases f <;> cases g <;> cases i <;> simp at h <;> obtain ⟨rfl, rfl⟩ := h <;>
      exact ⟨rfl, by decide, by decide, by decide, by decide⟩
    · simp [h50, h16] at h

theorem decimation_none_iff (fl : Flags) (rate : Nat) (h : decimation fl rate = none) : requested fl rate = [] := by
  obtain ⟨a, b, c, d, e, f, g, i⟩ := fl
  unfold requested
  unfold decimation at h
  by_cases h50 : rate = 50
  · subst h50
    cases a <;> cases b <;> cases c <;> cases d <;> simp at h ⊢
  · rw [if_neg h50]
    by_cases h16 : rate = 16
    · subst h16
      cases e <;> cases f <;> cases g <;> cases i <;> simp at h ⊢
    · rw [if_neg h16]

/-- The sampling interval of a rate in Hz. -/
theorem interval_ok {rnd : ℚ → ℚ} (h : Ieee rnd) (hz : ℕ) (h1 : 1000 ≤ hz) (h2 : hz ≤ 65535000) :
    rnd (1 / hz) * hz ≤ 1 + 1 / 2 ^ 53 ∧ 1 - 1 / 2 ^ 53 ≤ rnd (1 / hz) * hz := by
  have q1 : (1000 : ℚ) ≤ hz := by exact_mod_cast h1
  have q2 : (hz : ℚ) ≤ 65535000 := by exact_mod_cast h2
  have hr : (0 : ℚ) < hz := by linarith
  have k1 : 1 / 2 ^ 200 ≤ 1 / (hz : ℚ) := by
    refine one_div_le_one_div_of_le hr (q2.trans ?_)
    norm_num
  have k2 : 1 / (hz : ℚ) ≤ 2 ^ 200 := by
    rw [div_le_iff₀ hr]
    have : (1 : ℚ) ≤ 2 ^ 200 * 1000 := by norm_num
    have k : (2 : ℚ) ^ 200 * 1000 ≤ 2 ^ 200 * hz := mul_le_mul_of_nonneg_left q1 (by positivity)
    linarith
  obtain ⟨l1, l2⟩ := h.pos k1 k2
  constructor
  · have := mul_le_mul_of_nonneg_right l2 hr.le
    have d : (1 / (hz : ℚ) + 1 / (hz : ℚ) / 2 ^ 53) * hz = 1 + 1 / 2 ^ 53 := by field_simp
    linarith
  · have := mul_le_mul_of_nonneg_right l1 hr.le
    have d : (1 / (hz : ℚ) - 1 / (hz : ℚ) / 2 ^ 53) * hz = 1 - 1 / 2 ^ 53 := by field_simp
    linarith

/-- **C71** For every well-formed file and every combination of the eight keywords: the signal is decimated in steps of at most
5, altogether by the ratio of the rate of the file to the highest rate asked for; there are as many times as samples, time k
is within 2⁻³⁰ s of the start plus k intervals of the new rate, and the times increase strictly. -/
theorem C71_decimation {X : Type} {rnd : ℚ → ℚ} (h : Ieee rnd) (cplx : Int × Int → X) (dec : Decimate X)
    (hdec : DecimateLaw dec) (fl : Flags) (ul : Option Int) {n : Nat} {l : List Block} {rest : List Byte}
    (w : WellFormed n l rest) {rate : Nat} {s : ℚ} (t : Timed l rest n rate s)
    (hr : rate = 1 ∨ rate = 16 ∨ rate = 50) (hsize : (fileOf l rest).length < 2 ^ 53) :
    ∃ (r : Reader X) (qs : List Nat), construct rnd cplx dec fl false ul (fileOf l rest) = .ok r ∧
      qs.prod * finalRate fl rate = rate * 1000 ∧ (∀ q ∈ qs, 2 ≤ q ∧ q ≤ 5) ∧
      qs.foldlM (fun x q => dec q x) ((samples l).map cplx) = .ok r.iq ∧
      r.iq.length = ((samples l).length + qs.prod - 1) / qs.prod ∧ r.spm.length = r.iq.length ∧
      (∀ (k : Nat) (x : ℚ), r.spm[k]? = some x → |x - (s + k / finalRate fl rate)| ≤ 1 / 2 ^ 30) ∧
      (∀ (j k : Nat) (x y : ℚ), j < k → r.spm[j]? = some x → r.spm[k]? = some y → x < y) := by
  cases hdc : decimation fl rate with
  | none =>
    have hreq := decimation_none_iff fl rate hdc
    obtain ⟨r, e, a1, a2, a3, a4⟩ := C70_times h cplx dec fl false ul w t hr hsize hreq
    obtain ⟨r', e', b1⟩ := C69_samples h cplx dec fl ul w t hr hsize hreq
    rw [e] at e'
    cases e'
    have hf : finalRate fl rate = rate * 1000 := by rw [finalRate, hreq]; rfl
    refine ⟨r, [], e, ?_, ?_, ?_, ?_, ?_, ?_, a4⟩
    · rw [hf]; simp
    · intro q hq; cases hq
    · rw [b1]; rfl
    · rw [a2]; simp
    · rw [a1, a2]
    · intro k x hx
      have := a3 k x hx
      rw [hf]
      push_cast
      exact this
  | some d =>
    obtain ⟨qs, hz⟩ := d
    obtain ⟨f1, f2, f3, f4, f5⟩ := decimation_some fl rate qs hz hdc
    obtain ⟨dt, hd', -, T, hs, -, p1, -, -, -, c⟩ := file_ok h w t hr hsize ul
    obtain ⟨iq, e, hl⟩ := decimateAll_length hdec qs ((samples l).map cplx) fun q hq => by have := f3 q hq; omega
    rw [c cplx dec fl false, hdc, decoded_false w]
    simp only [e, Except.bind]
    rw [List.length_map] at hl
    have hqp : 0 < qs.prod := by
      rcases Nat.eq_zero_or_pos qs.prod with k | k
      · rw [k] at f2; omega
      · exact k
    have hzq : (0 : ℚ) < hz := by exact_mod_cast (show 0 < hz by omega)
    obtain ⟨i1, i2⟩ := interval_ok h hz f4 (by omega)
    have key : ∀ k, k < iq.length → Times (rnd (1 / hz)) hz s k := by
      intro k hk
      refine ⟨by exact_mod_cast f4, by exact_mod_cast (show hz ≤ 65535000 by omega), i1, i2, t.nonneg, ?_⟩
      have hk2 : k * qs.prod ≤ n * l.length := by
        rw [hl, samples_length w] at hk
        have hN : 0 < n * l.length := Nat.mul_pos w.pos (List.length_pos_iff.2 w.some)
        rw [show n * l.length + qs.prod - 1 = n * l.length - 1 + qs.prod by omega, Nat.add_div_right _ hqp] at hk
        have := Nat.div_mul_le_self (n * l.length - 1) qs.prod
        have : k * qs.prod ≤ (n * l.length - 1) / qs.prod * qs.prod := Nat.mul_le_mul_right _ (by omega)
        omega
      refine le_trans ?_ t.stop
      have hR : (0 : ℚ) < (rate : ℚ) * 1000 := by
        have : (0 : ℚ) < rate := by exact_mod_cast (show 0 < rate by omega)
        positivity
      have e1 : (qs.prod : ℚ) * hz = rate * 1000 := by exact_mod_cast f2
      have : (k : ℚ) / hz ≤ ((n * l.length : ℕ) : ℚ) / (rate * 1000) := by
        rw [div_le_div_iff₀ hzq hR, ← e1]
        have : ((k * qs.prod : ℕ) : ℚ) ≤ ((n * l.length : ℕ) : ℚ) := by exact_mod_cast hk2
        have h3 := mul_le_mul_of_nonneg_right this hzq.le
        push_cast at h3 ⊢
        linarith
      linarith
    refine ⟨_, qs, rfl, ?_, f3, ?_, ?_, ?_, ?_, ?_⟩
    · rw [f1, f2]
    · rw [← decimateAll_eq]; exact e
    · exact hl
    · exact arange_length _ _ _ _
    · intro k x hx
      simp only [arange_get] at hx
      split at hx
      · rename_i hk
        cases hx
        rw [f1]
        exact arange_ideal h (key k hk) hs k le_rfl
      · cases hx
    · intro j k x y hjk hx hy
      simp only [arange_get] at hx hy
      split at hx
      · split at hy
        · rename_i hk
          cases hx; cases hy
          have := arange_lt h (key k hk) hs j k hjk le_rfl
          have w : (0 : ℚ) < 1 / 2 ^ 27 := by norm_num
          linarith
        · cases hy
      · cases hx

/-- Taking every `q`-th element. -/
def everyNth {X : Type} (q : Nat) (l : List X) : List X :=
  (List.range ((l.length + q - 1) / q)).filterMap fun k => l[k * q]?

theorem everyNth_law {X : Type} : DecimateLaw (X := X) fun q l => .ok (everyNth q l) := by
  intro q l hq
  refine ⟨_, rfl, ?_⟩
  unfold everyNth
  generalize hN : (l.length + q - 1) / q = N
  have hlt : ∀ k < N, k * q < l.length := by
    intro k hk
    rw [← hN] at hk
    have : k < (l.length - 1) / q + 1 ∨ l.length = 0 := by
      rcases Nat.eq_zero_or_pos l.length with z | z
      · exact .inr z
      · left
        rwa [show l.length + q - 1 = l.length - 1 + q by omega, Nat.add_div_right _ hq] at hk
    rcases this with h | h
    · have h1 : k * q ≤ (l.length - 1) / q * q := Nat.mul_le_mul_right _ (by omega)
      have h2 := Nat.div_mul_le_self (l.length - 1) q
      rcases Nat.eq_zero_or_pos l.length with z | z
      · rw [z] at hk
        rw [Nat.div_eq_of_lt (by omega)] at hk
        omega
      · omega
    · rw [h, Nat.div_eq_of_lt (by omega)] at hk
      omega
  clear hN
  induction N with
  | zero => rfl
  | succ N ih =>
    rw [List.range_succ, List.filterMap_append, List.length_append, ih fun k hk => hlt k (by omega)]
    simp [List.getElem?_eq_getElem (hlt N (by omega))]

example : ∃ r, construct id id (fun q l => .ok (everyNth q l)) { noFlags with d50to25 := true, d50to1 := true } false none
    (fileOf (demoBlocks 50) [9]) = .ok r ∧ r.spm.length = r.iq.length := by
  obtain ⟨r, qs, e, -, -, -, -, h, -⟩ := C71_decimation ieee_id id (fun q l => .ok (everyNth q l)) everyNth_law
    { noFlags with d50to25 := true, d50to1 := true } none (demo_wellFormed 50 (by decide))
    (demo_timed 50 (by decide)) (by decide) (by decide +kernel)
  exact ⟨r, e, h⟩

/-- **C71** is false for every other sample rate of the RSR (2, 4, 8, 25, 100 kHz): such a file ends in an
`UnboundLocalError`, whatever it contains. -/
theorem C71_rate_false {X : Type} {rnd : ℚ → ℚ} (h : Ieee rnd) (cplx : Int × Int → X) (dec : Decimate X) (fl : Flags)
    (bias : Bool) (ul : Option Int) (f : List Byte) {rate n m : Nat} {s : ℚ}
    (hr : rate = 2 ∨ rate = 4 ∨ rate = 8 ∨ rate = 25 ∨ rate = 100) (hlen : 260 ≤ f.length) (hsize : f.length < 2 ^ 53)
    (hrate : numAt f 70 2 = rate) (hstart : dblOfBits (numAt f 80 8) = .fin s) (hs0 : 0 ≤ s)
    (hstop : s + ((n * m : ℕ) : ℚ) / ((rate : ℚ) * 1000) ≤ 2 ^ 19)
    (hbits : 0 < numAt f 68 1) (hn : 4 * numAt f 258 2 / numAt f 68 1 = n) (hn0 : 0 < n)
    (hm : f.length / (numAt f 12 8 + 20) = m) (hm0 : 0 < m) :
    construct rnd cplx dec fl bias ul f = .error .unboundLocal := by
  have hr0 : 0 < rate := by omega
  have hbb : numAt f 12 8 + 20 ≤ 2 ^ 70 := by
    have := numAt_lt f 12 8
    have k : (256 : ℕ) ^ 8 + 20 ≤ 2 ^ 70 := by norm_num
    exact (Nat.add_le_add_right this.le 20).trans k
  obtain ⟨dt, d0, d1, d2, e⟩ := readHdr_eq h ul f hlen hbits (by rw [hrate]; exact hr0) s hstart
  rw [hrate] at d0 d1 d2
  have T : Times dt (rate * 1000) s (n * m) := by
    refine ⟨?_, ?_, d1, d2, hs0, hstop⟩
    · have : (1 : ℚ) ≤ rate := by exact_mod_cast hr0
      linarith
    · have : (rate : ℚ) ≤ 100 := by exact_mod_cast (show rate ≤ 100 by omega)
      linarith
  have n2 : nSfdu rnd f.length (numAt f 12 8 + 20) = m := by
    unfold nSfdu
    rw [pyInt_div h _ _ (Nat.succ_pos _) hsize hbb, hm]
  rw [hn, n2, nPoints_ok h T (Nat.mul_pos hn0 hm0), hrate] at e
  obtain ⟨hd, e, p1, p2⟩ : ∃ hd, readHdr rnd ul f = .ok hd ∧
      hd.spm = arange rnd s dt (n * m) ∧ hd.rate = rate := ⟨_, e, rfl, rfl⟩
  obtain ⟨x, xs, ex⟩ : ∃ x xs, hd.spm = x :: xs := by
    cases hx : hd.spm with
    | nil =>
      have := arange_length rnd s dt (n * m)
      rw [← p1, hx] at this
      have := Nat.mul_pos hn0 hm0
      simp at *
      omega
    | cons x xs => exact ⟨x, xs, rfl⟩
  have er : ∀ lo hi, sfduRange rnd hd hd.spm lo hi = .error .unboundLocal := by
    intro lo hi
    unfold sfduRange
    rw [if_pos (by rw [p2]; omega)]
    rfl
  unfold construct
  rw [e]
  simp only [bind, Except.bind, er]
  rw [ex]
  rfl

example : construct (X := Int × Int) id id (fun _ l => .ok l) noFlags true none (demoHdr 1 16 8 2005 ++ [1, 2, 3, 4]) =
    .error .unboundLocal :=
  C71_rate_false ieee_id _ _ _ _ _ _ (rate := 8) (n := 1) (m := 1) (s := 100) (by decide) (by decide +kernel)
    (by decide +kernel) (by decide +kernel) (by decide +kernel) (by norm_num) (by norm_num) (by decide +kernel)
    (by decide +kernel) (by decide) (by decide +kernel) (by decide)

end Verif.Rsr
