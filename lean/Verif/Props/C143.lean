import Verif.Model.MergeLabel
import Verif.Props.C128
import Verif.Props.C116

/-!
# C143 The label of a merged table
-/
namespace Verif.Merge
open Verif.Rsr Verif.Out Verif.Pds Verif.Out.Spec

namespace Spec
open Verif.Pds.Spec

/-- Least value of a column. -/
def Least (l : List ℚ) (x : ℚ) : Prop := x ∈ l ∧ ∀ y ∈ l, x ≤ y

/-- Greatest value of a column. -/
def Greatest (l : List ℚ) (x : ℚ) : Prop := x ∈ l ∧ ∀ y ∈ l, y ≤ x

/-- The beginnings of the lines that tell about the table. -/
def fields : List (List Char) := [
  "FILE_RECORDS                         =".toList,
  "  ROWS                        =".toList,
  "MINIMUM_RING_RADIUS                  =".toList,
  "MAXIMUM_RING_RADIUS                  =".toList,
  "  MINIMUM_SAMPLING_PARAMETER  =".toList,
  "  MAXIMUM_SAMPLING_PARAMETER  =".toList,
  "MINIMUM_RING_LONGITUDE               =".toList,
  "MAXIMUM_RING_LONGITUDE               =".toList,
  "MINIMUM_OBSERVED_RING_AZIMUTH        =".toList,
  "MAXIMUM_OBSERVED_RING_AZIMUTH        =".toList,
  "^SERIES                              =".toList,
  "PRODUCT_ID                           =".toList,
  "START_TIME                           =".toList,
  "STOP_TIME                            =".toList,
  "RING_EVENT_START_TIME                =".toList,
  "RING_EVENT_STOP_TIME                 =".toList,
  "SPACECRAFT_EVENT_START_TIME          =".toList,
  "SPACECRAFT_EVENT_STOP_TIME           =".toList]

/-- The texts by which they are found. -/
def words : List (List Char) := [
  "FILE_RECORDS".toList,
  "ROWS".toList,
  "MINIMUM_RING_RADIUS".toList,
  "MAXIMUM_RING_RADIUS".toList,
  "MINIMUM_SAMPLING_PARAMETER".toList,
  "MAXIMUM_SAMPLING_PARAMETER".toList,
  "MINIMUM_RING_LONGITUDE".toList,
  "MAXIMUM_RING_LONGITUDE".toList,
  "MINIMUM_OBSERVED_RING_AZIMUTH".toList,
  "MAXIMUM_OBSERVED_RING_AZIMUTH".toList,
  "^SERIES".toList,
  "PRODUCT_ID                           =".toList,
  "START_TIME                           =".toList,
  "STOP_TIME                            =".toList,
  "RING_EVENT_START_TIME                =".toList,
  "RING_EVENT_STOP_TIME                 =".toList,
  "SPACECRAFT_EVENT_START_TIME          =".toList,
  "SPACECRAFT_EVENT_STOP_TIME           =".toList]

/-- What a line has to show after its beginning: `n` rows, least and greatest values, the name and the times of the earliest and the latest row. -/
inductive Shows (t : Tab) (n : Nat) (out year doy : List Char) : List Char → List Char → Prop
  | fileRecords : Shows t n out year doy "FILE_RECORDS                         =".toList (decimal n)
  | rows : Shows t n out year doy "  ROWS                        =".toList (decimal n)
  | minRadius {x : ℚ} (h : Least t.radius x) : Shows t n out year doy "MINIMUM_RING_RADIUS                  =".toList (pad 10 (fixed 3 x) ++ "   <km>".toList)
  | maxRadius {x : ℚ} (h : Greatest t.radius x) : Shows t n out year doy "MAXIMUM_RING_RADIUS                  =".toList (pad 10 (fixed 3 x) ++ "   <km>".toList)
  | minSampling {x : ℚ} (h : Least t.radius x) : Shows t n out year doy "  MINIMUM_SAMPLING_PARAMETER  =".toList (pad 10 (fixed 3 x))
  | maxSampling {x : ℚ} (h : Greatest t.radius x) : Shows t n out year doy "  MAXIMUM_SAMPLING_PARAMETER  =".toList (pad 10 (fixed 3 x))
  | minLongitude {x : ℚ} (h : Least t.longitude x) : Shows t n out year doy "MINIMUM_RING_LONGITUDE               =".toList (pad 8 (fixed 4 x) ++ "   <deg>".toList)
  | maxLongitude {x : ℚ} (h : Greatest t.longitude x) : Shows t n out year doy "MAXIMUM_RING_LONGITUDE               =".toList (pad 8 (fixed 4 x) ++ "   <deg>".toList)
  | minAzimuth {x : ℚ} (h : Least t.azimuth x) : Shows t n out year doy "MINIMUM_OBSERVED_RING_AZIMUTH        =".toList (pad 8 (fixed 4 x) ++ "   <deg>".toList)
  | maxAzimuth {x : ℚ} (h : Greatest t.azimuth x) : Shows t n out year doy "MAXIMUM_OBSERVED_RING_AZIMUTH        =".toList (pad 8 (fixed 4 x) ++ "   <deg>".toList)
  | series : Shows t n out year doy "^SERIES                              =".toList ('"' :: out ++ ['"'])
  | productId : Shows t n out year doy "PRODUCT_ID                           =".toList ('"' :: out ++ ['"'])
  | start {x : ℚ} {h m s : Nat} (e : Least t.oet x) (c : TimeOfDay x h m s) : Shows t n out year doy "START_TIME                           =".toList (timeText year doy h m s)
  | stop {x : ℚ} {h m s : Nat} (e : Greatest t.oet x) (c : TimeOfDay x h m s) : Shows t n out year doy "STOP_TIME                            =".toList (timeText year doy h m s)
  | ringStart {x : ℚ} {h m s : Nat} (e : Least t.ret x) (c : TimeOfDay x h m s) : Shows t n out year doy "RING_EVENT_START_TIME                =".toList (timeText year doy h m s)
  | ringStop {x : ℚ} {h m s : Nat} (e : Greatest t.ret x) (c : TimeOfDay x h m s) : Shows t n out year doy "RING_EVENT_STOP_TIME                 =".toList (timeText year doy h m s)
  | craftStart {x : ℚ} {h m s : Nat} (e : Least t.scet x) (c : TimeOfDay x h m s) : Shows t n out year doy "SPACECRAFT_EVENT_START_TIME          =".toList (timeText year doy h m s)
  | craftStop {x : ℚ} {h m s : Nat} (e : Greatest t.scet x) (c : TimeOfDay x h m s) : Shows t n out year doy "SPACECRAFT_EVENT_STOP_TIME           =".toList (timeText year doy h m s)

/-- The columns hold times of one day that do not fall. -/
structure OneDay (l : List ℚ) : Prop where
  ne : l ≠ []
  grows : l.Pairwise (· ≤ ·)
  day : ∀ x ∈ l, 0 ≤ x ∧ x < 86400

/-- None of the texts is in the line. -/
def Clean (s : List Char) : Prop := ∀ w ∈ words, ¬ w <:+: s

end Spec
open Verif.Merge.Spec

/-! ### Search texts -/

theorem infix_sep {x : Char} {w a b : List Char} (hx : x ∉ w.dropLast) (h : w <:+: a ++ x :: b) : w <:+: a ++ [x] ∨ w <:+: b := by
  obtain ⟨p, s, e⟩ := h
  have e : (a ++ [x]) ++ b = p ++ (w ++ s) := by simpa using e.symm
  rcases List.append_eq_append_iff.mp e with ⟨c, h1, h2⟩ | ⟨c, h1, h2⟩
  · exact .inr ⟨c, s, by rw [h2, List.append_assoc]⟩
  · rcases List.append_eq_append_iff.mp h2 with ⟨d, h3, h4⟩ | ⟨d, h3, h4⟩
    · exact .inl ⟨p, d, by rw [h1, h3, List.append_assoc]⟩
    · by_cases hd : d = []
      · subst hd
        exact .inl ⟨p, [], by rw [h1, h3]; simp⟩
      · by_cases hc : c = []
        · subst hc
          exact .inr ⟨[], s, by rw [h4, h3]; simp⟩
        · exfalso
          apply hx
          have : x ∈ c := by
            have hl : (a ++ [x]).getLast (by simp) = x := by simp
            have hr : (p ++ c).getLast (by simp [hc]) = c.getLast hc := List.getLast_append_of_ne_nil _ hc
            have : (a ++ [x]).getLast (by simp) = (p ++ c).getLast (by simp [hc]) := by simp only [h1]
            rw [hl, hr] at this
            rw [this]
            exact List.getLast_mem hc
          rw [h3, List.dropLast_append_of_ne_nil hd]
          exact List.mem_append_left _ this

theorem mem_keys (k : Key) : k ∈ keys := by cases k <;> decide

theorem words_eq : words = keys.map Key.search := by decide +kernel

theorem fields_eq : fields = keys.map fun k => k.field ++ ['='] := by decide +kernel

theorem search_table : ∀ k0 ∈ keys, ∀ k ∈ keys, (k.search <:+: k0.field ++ ['=']) ↔ k = k0 := by decide +kernel

theorem search_sep : ∀ k ∈ keys, '=' ∉ k.search.dropLast := by decide +kernel

theorem search_iff (k0 k : Key) {rest : List Char} (hr : Clean rest) : k.search <:+: k0.field ++ '=' :: rest ↔ k = k0 := by
  rw [← search_table k0 (mem_keys k0) k (mem_keys k)]
  constructor
  · intro h
    rcases infix_sep (search_sep k (mem_keys k)) h with h | h
    · exact h
    · exact absurd h (hr _ (by rw [words_eq]; exact List.mem_map_of_mem (mem_keys k)))
  · intro h
    refine h.trans ⟨[], rest, by simp⟩

theorem editLine_key (value : Key → List Char) (k0 : Key) {rest : List Char} (hr : Clean rest) :
    editLine value (k0.field ++ '=' :: rest) = newLine value k0 := by
  have H : ∀ k : Key, k.search <:+: k0.field ++ '=' :: rest ↔ k = k0 := fun k => search_iff k0 k hr
  unfold editLine
  simp only [H]
  cases k0 <;> rfl

theorem editLine_clean (value : Key → List Char) {line : List Char} (h : Clean line) : editLine value line = line := by
  have H : ∀ k : Key, ¬ k.search <:+: line := fun k => h _ (by rw [words_eq]; exact List.mem_map_of_mem (mem_keys k))
  unfold editLine
  simp only [H, if_false]
  rfl

theorem le_width {first : List (List Char)} {l : List Char} (h : l ∈ first) : l.length ≤ width first := by
  have key : ∀ (ns : List Nat) (a : Nat), a ≤ ns.foldl max a ∧ ∀ n ∈ ns, n ≤ ns.foldl max a := by
    intro ns
    induction ns with
    | nil => intro a; exact ⟨le_rfl, fun n h => absurd h List.not_mem_nil⟩
    | cons m ns ih =>
      intro a
      obtain ⟨h1, h2⟩ := ih (max a m)
      refine ⟨(le_max_left a m).trans h1, fun n hn => ?_⟩
      rcases List.mem_cons.mp hn with rfl | hn
      · exact (le_max_right a n).trans h1
      · exact h2 n hn
  exact (key _ 0).2 _ (List.mem_map_of_mem h)

/-! ### Rows -/

theorem merged_rows {rows : List (List (List Char))} (h : ∀ bs ∈ rows, ∀ b ∈ bs, ∀ c ∈ b, c ≠ '\r' ∧ c ≠ '\n') :
    mergedText (rows.map (ended ['\r', '\n'])) = ended ['\n'] rows.flatten := by
  unfold mergedText
  induction rows with
  | nil => rfl
  | cons bs rows ih =>
    have h1 := universal_file (bs := bs) fun b hb c hc => (h bs List.mem_cons_self b hb c hc).1
    have h2 := ih fun bs' hbs => h bs' (List.mem_cons_of_mem _ hbs)
    simp only [List.map_cons, List.flatten_cons, h1, h2]
    simp [ended]

theorem universal_same : ∀ {s : List Char}, (∀ c ∈ s, c ≠ '\r') → universal s = s
  | [], _ => rfl
  | c :: cs, h => by
    rw [universal_char (h c List.mem_cons_self), universal_same fun d hd => h d (List.mem_cons_of_mem _ hd)]

theorem count_ended : ∀ {bs : List (List Char)}, (∀ b ∈ bs, ∀ c ∈ b, c ≠ '\n') → (ended ['\n'] bs).count '\n' = bs.length
  | [], _ => rfl
  | b :: bs, h => by
    have h1 : b.count '\n' = 0 := List.count_eq_zero.mpr fun hc => h b List.mem_cons_self _ hc rfl
    have h2 := count_ended fun b' hb => h b' (List.mem_cons_of_mem b hb)
    unfold ended at h2 ⊢
    rw [List.flatMap_cons, List.count_append, List.count_append, h1, h2]
    simp
    omega

/-- The number of records of the label is the number of rows of all pieces. -/
theorem C143_records {rows : List (List (List Char))} (h : ∀ bs ∈ rows, ∀ b ∈ bs, ∀ c ∈ b, c ≠ '\r' ∧ c ≠ '\n') :
    records (rows.map (ended ['\r', '\n'])) = rows.flatten.length := by
  have hf : ∀ b ∈ rows.flatten, ∀ c ∈ b, c ≠ '\r' ∧ c ≠ '\n' := by
    intro b hb c hc
    obtain ⟨bs, h1, h2⟩ := List.mem_flatten.mp hb
    exact h bs h1 b h2 c hc
  rw [records, merged_rows h, universal_same, count_ended fun b hb c hc => (hf b hb c hc).2]
  intro c hc
  obtain ⟨b, hb, hc⟩ := List.mem_flatMap.mp hc
  rcases List.mem_append.mp hc with hc | hc
  · exact (hf b hb c hc).1
  · rw [List.mem_singleton.mp hc]; decide

example : (∀ bs ∈ [["1,2".toList, "2,3".toList], ["3,4".toList]], ∀ b ∈ bs, ∀ c ∈ b, c ≠ '\r' ∧ c ≠ '\n') ∧
    records (["1,2\r\n2,3\r\n".toList, "3,4\r\n".toList]) = 3 := by decide +kernel

/-- The rows of the merged table are one byte shorter than in the pieces and in RECORD_BYTES. -/
theorem C143_size_false {rows : List (List (List Char))} {n : Nat} (h : ∀ bs ∈ rows, ∀ b ∈ bs, (∀ c ∈ b, c ≠ '\r' ∧ c ≠ '\n') ∧ (b ++ ['\r', '\n']).length = n)
    (hne : rows.flatten ≠ []) : (mergedText (rows.map (ended ['\r', '\n']))).length = records (rows.map (ended ['\r', '\n'])) * (n - 1) ∧
      (mergedText (rows.map (ended ['\r', '\n']))).length ≠ records (rows.map (ended ['\r', '\n'])) * n := by
  have h1 : ∀ bs ∈ rows, ∀ b ∈ bs, ∀ c ∈ b, c ≠ '\r' ∧ c ≠ '\n' := fun bs hbs b hb => (h bs hbs b hb).1
  have h2 : ∀ b ∈ rows.flatten, (b ++ ['\r', '\n']).length = n := by
    intro b hb
    obtain ⟨bs, k1, k2⟩ := List.mem_flatten.mp hb
    exact (h bs k1 b k2).2
  rw [merged_rows h1, C143_records h1]
  have key : ∀ bs : List (List Char), (∀ b ∈ bs, (b ++ ['\r', '\n']).length = n) → (ended ['\n'] bs).length = bs.length * (n - 1) := by
    intro bs
    induction bs with
    | nil => intro _; simp [ended]
    | cons b bs ih =>
      intro hb
      have e := hb b List.mem_cons_self
      have i := ih fun b' hb' => hb b' (List.mem_cons_of_mem _ hb')
      unfold ended at i ⊢
      rw [List.flatMap_cons, List.length_append, i, List.length_cons, Nat.succ_mul]
      simp only [List.length_append, List.length_cons, List.length_nil] at e ⊢
      omega
  rw [key _ h2]
  refine ⟨rfl, ?_⟩
  obtain ⟨b, bs, e⟩ := List.exists_cons_of_ne_nil hne
  have hb := h2 b (by rw [e]; exact List.mem_cons_self)
  have : 0 < rows.flatten.length := List.length_pos_of_ne_nil hne
  simp only [List.length_append, List.length_cons, List.length_nil] at hb
  intro hc
  have := Nat.eq_of_mul_eq_mul_left this hc
  omega

example : (∀ bs ∈ [["1,2".toList, "2,3".toList], ["3,4".toList]], ∀ b ∈ bs, (∀ c ∈ b, c ≠ '\r' ∧ c ≠ '\n') ∧ (b ++ ['\r', '\n']).length = 5) ∧
    (mergedText ["1,2\r\n2,3\r\n".toList, "3,4\r\n".toList]).length = 12 := by decide +kernel

/-! ### Times -/

theorem C143_time {t : ℚ} (h0 : 0 ≤ t) (h1 : t < 86400) (year doy : List Char) :
    ∃ h m s, Pds.Spec.TimeOfDay t h m s ∧ spm2date year doy t = Pds.Spec.timeText year doy h m s := by
  have hf : ⌊t / 3600⌋ = ⌊t⌋ / 3600 := by exact_mod_cast (Int.floor_div_natCast (k := ℚ) t 3600)
  have hg : ⌊t / 60⌋ = ⌊t⌋ / 60 := by exact_mod_cast (Int.floor_div_natCast (k := ℚ) t 60)
  have hs : ⌊t - 60 * (⌊t / 60⌋ : ℚ)⌋ = ⌊t⌋ % 60 := by
    have : t - 60 * (⌊t / 60⌋ : ℚ) = t - ((60 * ⌊t / 60⌋ : ℤ) : ℚ) := by push_cast; ring
    rw [this, Int.floor_sub_intCast, hg]
    omega
  obtain ⟨N, hN⟩ := Int.eq_ofNat_of_zero_le (Int.floor_nonneg.mpr h0)
  have hlt : N < 86400 := by
    have : ⌊t⌋ < 86400 := Int.floor_lt.mpr (by exact_mod_cast h1)
    omega
  refine ⟨N / 3600, N / 60 % 60, N % 60, ⟨by omega, by omega, by omega, ?_, ?_⟩, ?_⟩
  · have e : 3600 * (N / 3600) + 60 * (N / 60 % 60) + N % 60 = N := by omega
    rw [e]
    have := Int.floor_le t
    rw [hN] at this
    exact_mod_cast this
  · have e : 3600 * (N / 3600) + 60 * (N / 60 % 60) + N % 60 = N := by omega
    rw [e]
    have := Int.lt_floor_add_one t
    rw [hN] at this
    exact_mod_cast this
  · have e1 : ⌊t / 3600⌋ = ((N / 3600 : Nat) : ℤ) := by rw [hf, hN]; norm_num
    have e2 : ⌊t / 60⌋ % 60 = ((N / 60 % 60 : Nat) : ℤ) := by rw [hg, hN]; norm_num
    have e3 : ⌊t - 60 * (⌊t / 60⌋ : ℚ)⌋ = ((N % 60 : Nat) : ℤ) := by rw [hs, hN]; norm_num
    simp only [spm2date, e1, e2, e3, zfill2_two _ (show N / 3600 < 100 by omega), zfill2_two _ (show N / 60 % 60 < 100 by omega),
      zfill2_two _ (show N % 60 < 100 by omega), Pds.Spec.timeText]

example : (0 : ℚ) ≤ 36061.5 ∧ (36061.5 : ℚ) < 86400 ∧ spm2date "2005".toList "123".toList 36061.5 = "2005-123T10:01:01".toList := by decide +kernel

/-- After midnight the hours go on, the day stays. -/
theorem C143_midnight_false : spm2date "2005".toList "123".toList 90061 = "2005-123T25:01:01".toList ∧
    ∀ h m s, Pds.Spec.TimeOfDay 90061 h m s → False := by
  refine ⟨by decide +kernel, ?_⟩
  rintro h m s ⟨h1, h2, h3, -, h5⟩
  have : (90061 : ℚ) < ((3600 * h + 60 * m + s + 1 : Nat) : ℚ) := by push_cast at h5 ⊢; linarith
  have : 90061 < 3600 * h + 60 * m + s + 1 := by exact_mod_cast this
  omega

/-- When the rows run against the time, as on the ingress side, the start is after the stop. -/
theorem C143_order_false {t : Tab} {a b : ℚ} (ha : t.oet.head? = some a) (hb : t.oet.getLast? = some b) (h0 : 0 ≤ b) (hab : b + 1 ≤ a) (h1 : a < 86400)
    (n : Nat) (out year doy : List Char) : ∃ h m s h' m' s', Pds.Spec.TimeOfDay a h m s ∧ Pds.Spec.TimeOfDay b h' m' s' ∧
      newValue t n out year doy .start = Pds.Spec.timeText year doy h m s ∧ newValue t n out year doy .stop = Pds.Spec.timeText year doy h' m' s' ∧
      3600 * h' + 60 * m' + s' < 3600 * h + 60 * m + s := by
  obtain ⟨h, m, s, e1, t1⟩ := C143_time (t := a) (by linarith) h1 year doy
  obtain ⟨h', m', s', e2, t2⟩ := C143_time (t := b) h0 (by linarith) year doy
  refine ⟨h, m, s, h', m', s', e1, e2, ?_, ?_, ?_⟩
  · simp only [newValue, List.headD_eq_head?_getD, ha, Option.getD_some, t1]
  · simp only [newValue, List.getLastD_eq_getLast?, hb, Option.getD_some, t2]
  · obtain ⟨-, -, -, -, g1⟩ := e1
    obtain ⟨-, -, -, g2, -⟩ := e2
    have : ((3600 * h' + 60 * m' + s' : Nat) : ℚ) < ((3600 * h + 60 * m + s : Nat) : ℚ) := by linarith
    exact_mod_cast this

example : [20000, (18000 : ℚ)].head? = some 20000 ∧ [20000, (18000 : ℚ)].getLast? = some 18000 := by decide +kernel

/-! ### Lines -/

theorem least_spec {l : List ℚ} (h : l ≠ []) : Least l (least l) := by
  obtain ⟨x, xs, rfl⟩ := List.exists_cons_of_ne_nil h
  exact foldl_min_spec xs x

theorem greatest_spec {l : List ℚ} (h : l ≠ []) : Greatest l (greatest l) := by
  obtain ⟨x, xs, rfl⟩ := List.exists_cons_of_ne_nil h
  exact foldl_max_spec xs x

theorem first_least {l : List ℚ} (h : OneDay l) : Least l (l.headD 0) := by
  obtain ⟨x, xs, rfl⟩ := List.exists_cons_of_ne_nil h.ne
  refine ⟨List.mem_cons_self, fun y hy => ?_⟩
  rcases List.mem_cons.mp hy with rfl | hy
  · exact le_rfl
  · exact (List.pairwise_cons.mp h.grows).1 y hy

theorem last_greatest {l : List ℚ} (h : OneDay l) : Greatest l (l.getLastD 0) := by
  obtain ⟨xs, x, rfl⟩ := List.eq_nil_or_concat l |>.resolve_left h.ne
  rw [List.concat_eq_append] at h ⊢
  have e : (xs ++ [x]).getLastD 0 = x := by simp
  rw [e]
  refine ⟨by simp, fun y hy => ?_⟩
  rcases List.mem_append.mp hy with hy | hy
  · exact (List.pairwise_append.mp h.grows).2.2 y hy x (by simp)
  · exact (List.mem_singleton.mp hy).le

/-- The new values are those the label should show. -/
theorem newValue_shows {t : Tab} (h1 : t.radius ≠ []) (h2 : t.longitude ≠ []) (h3 : t.azimuth ≠ []) (ho : OneDay t.oet) (hr : OneDay t.ret)
    (hc : OneDay t.scet) (n : Nat) (out year doy : List Char) (k : Key) : Shows t n out year doy (k.field ++ ['=']) (newValue t n out year doy k) := by
  have time : ∀ {l : List ℚ} {x : ℚ}, OneDay l → x ∈ l → ∃ h m s, Pds.Spec.TimeOfDay x h m s ∧ spm2date year doy x = Pds.Spec.timeText year doy h m s :=
    fun hl hx => C143_time (hl.day _ hx).1 (hl.day _ hx).2 year doy
  cases k with
  | fileRecords => exact .fileRecords
  | rows => exact .rows
  | minRadius => exact .minRadius (least_spec h1)
  | maxRadius => exact .maxRadius (greatest_spec h1)
  | minSampling => exact .minSampling (least_spec h1)
  | maxSampling => exact .maxSampling (greatest_spec h1)
  | minLongitude => exact .minLongitude (least_spec h2)
  | maxLongitude => exact .maxLongitude (greatest_spec h2)
  | minAzimuth => exact .minAzimuth (least_spec h3)
  | maxAzimuth => exact .maxAzimuth (greatest_spec h3)
  | series => exact .series
  | productId => exact .productId
  | start =>
    obtain ⟨h, m, s, e, e'⟩ := time ho (first_least ho).1
    rw [newValue, e']
    exact .start (first_least ho) e
  | stop =>
    obtain ⟨h, m, s, e, e'⟩ := time ho (last_greatest ho).1
    rw [newValue, e']
    exact .stop (last_greatest ho) e
  | ringStart =>
    obtain ⟨h, m, s, e, e'⟩ := time hr (first_least hr).1
    rw [newValue, e']
    exact .ringStart (first_least hr) e
  | ringStop =>
    obtain ⟨h, m, s, e, e'⟩ := time hr (last_greatest hr).1
    rw [newValue, e']
    exact .ringStop (last_greatest hr) e
  | craftStart =>
    obtain ⟨h, m, s, e, e'⟩ := time hc (first_least hc).1
    rw [newValue, e']
    exact .craftStart (first_least hc) e
  | craftStop =>
    obtain ⟨h, m, s, e, e'⟩ := time hc (last_greatest hc).1
    rw [newValue, e']
    exact .craftStop (last_greatest hc) e

/-- Each line about the table shows what it should, when the times grow within a day, the label of the last piece is as long, nothing else in the line
looks like a keyword, and the new line is not longer than the longest one of the old label. -/
theorem C143_line_partial {t : Tab} (h1 : t.radius ≠ []) (h2 : t.longitude ≠ []) (h3 : t.azimuth ≠ []) (ho : OneDay t.oet) (hr : OneDay t.ret)
    (hc : OneDay t.scet) {rows : List (List (List Char))} (hrow : ∀ bs ∈ rows, ∀ b ∈ bs, ∀ c ∈ b, c ≠ '\r' ∧ c ≠ '\n') (out year doy : List Char)
    {first last : List (List Char)} {field rest : List Char} {i : Nat} (hf : field ∈ fields) (hi : first[i]? = some (field ++ rest)) (hl : i < last.length)
    (hcl : Clean rest) (hw : ∀ v, Shows t rows.flatten.length out year doy field v → ∃ l ∈ first, (field ++ ' ' :: v).length < l.length) :
    ∃ v, Shows t rows.flatten.length out year doy field v ∧
      (labelLines (newValue t (records (rows.map (ended ['\r', '\n']))) out year doy) first last)[i]? = some (field ++ ' ' :: v ++ ['\r', '\n']) := by
  rw [C143_records hrow]
  rw [fields_eq] at hf
  obtain ⟨k, -, rfl⟩ := List.mem_map.mp hf
  have hs := newValue_shows h1 h2 h3 ho hr hc rows.flatten.length out year doy k
  refine ⟨_, hs, ?_⟩
  obtain ⟨l, hm, hlen⟩ := hw _ hs
  have hwid := le_width hm
  rw [labelLines, List.getElem?_mapIdx, hi, Option.map_some, if_pos hl]
  have e : k.field ++ ['='] ++ rest = k.field ++ '=' :: rest := by simp
  rw [e, editLine_key _ k hcl, List.take_of_length_le]
  · rw [newLine, List.dropLast_concat]
    simp
  · simp only [newLine, List.length_append, List.length_cons, List.length_nil] at hlen ⊢
    omega

/-- A line without keywords stays as it is. -/
theorem C143_other (value : Key → List Char) {first last : List (List Char)} {b : List Char} {i : Nat} (hi : first[i]? = some (b ++ ['\n']))
    (hcl : Clean (b ++ ['\n'])) : (labelLines value first last)[i]? = some (b ++ ['\r', '\n']) := by
  have hm : b ++ ['\n'] ∈ first := List.mem_of_getElem? hi
  rw [labelLines, List.getElem?_mapIdx, hi, Option.map_some, editLine_clean value hcl, List.take_of_length_le (le_width hm)]
  simp

/-- Beyond the length of the last label nothing is changed. -/
theorem C143_short_false (value : Key → List Char) {first last : List (List Char)} {b : List Char} {i : Nat} (hi : first[i]? = some (b ++ ['\n']))
    (hl : last.length ≤ i) : (labelLines value first last)[i]? = some (b ++ ['\r', '\n']) := by
  rw [labelLines, List.getElem?_mapIdx, hi, Option.map_some, if_neg (by omega)]
  simp

theorem elevation_table : ∀ e ∈ ["MINIMUM_OBSERVED_RING_ELEVATION      =".toList, "MAXIMUM_OBSERVED_RING_ELEVATION      =".toList], ∀ w ∈ words,
    ¬ w <:+: e := by decide +kernel

/-- The lines of the elevation stay those of the first piece, whatever the table holds. -/
theorem C143_elevation_false (value : Key → List Char) {first last : List (List Char)} {e v : List Char} {i : Nat}
    (he : e ∈ ["MINIMUM_OBSERVED_RING_ELEVATION      =".toList, "MAXIMUM_OBSERVED_RING_ELEVATION      =".toList])
    (hi : first[i]? = some (e ++ v ++ ['\n'])) (hv : Clean (v ++ ['\n'])) : (labelLines value first last)[i]? = some (e ++ v ++ ['\r', '\n']) := by
  refine C143_other value hi fun w hw hin => ?_
  have hsplit : ∃ a, e = a ++ ['='] := by
    rcases List.mem_cons.mp he with rfl | he
    · exact ⟨"MINIMUM_OBSERVED_RING_ELEVATION      ".toList, by decide⟩
    · exact ⟨"MAXIMUM_OBSERVED_RING_ELEVATION      ".toList, by rw [List.mem_singleton.mp he]; decide⟩
  obtain ⟨a, ha⟩ := hsplit
  have hk : '=' ∉ w.dropLast := by
    rw [words_eq] at hw
    obtain ⟨k, hk, rfl⟩ := List.mem_map.mp hw
    exact search_sep k hk
  have : w <:+: a ++ '=' :: (v ++ ['\n']) := by simpa [ha] using hin
  rcases infix_sep hk this with h | h
  · exact elevation_table e he w hw (by rw [ha]; exact h)
  · exact hv w hw h

/-! ### A label -/

/-- A table of two rows for the examples. -/
def demoTab : Tab where
  radius := [87000, 87001]
  longitude := [10, 11]
  azimuth := [20, 19]
  oet := [36000, 36001]
  ret := [36000, 36001]
  scet := [36000, 36001]
  elevation := [5, 4]

/-- The label of the first piece for the examples. -/
def demoLabel : List (List Char) := ["RECORD_BYTES                         = 5\n".toList, "FILE_RECORDS                         = 1                        \n".toList,
  "MAXIMUM_RING_RADIUS                  = 87000.000   <km>\n".toList, "START_TIME                           = 2005-123T10:00:00\n".toList,
  "STOP_TIME                            = 2005-123T10:00:00\n".toList, "MINIMUM_OBSERVED_RING_ELEVATION      =   5.0000   <deg>\n".toList]

example : labelLines (newValue demoTab 2 "RSS_2005_123.TAB".toList "2005".toList "123".toList) demoLabel demoLabel =
    ["RECORD_BYTES                         = 5\r\n".toList, "FILE_RECORDS                         = 2\r\n".toList,
      "MAXIMUM_RING_RADIUS                  =  87001.000   <km>\r\n".toList, "START_TIME                           = 2005-123T10:00:00\r\n".toList,
      "STOP_TIME                            = 2005-123T10:00:01\r\n".toList, "MINIMUM_OBSERVED_RING_ELEVATION      =   5.0000   <deg>\r\n".toList] := by
  decide +kernel

example : Clean " = 5\n".toList ∧ Clean " 2005-123T10:00:00\n".toList ∧ Clean "   5.0000   <deg>\n".toList ∧
    Clean "RECORD_BYTES                         = 5\n".toList := by unfold Clean; decide +kernel

example : OneDay demoTab.oet ∧ demoTab.radius ≠ [] := ⟨⟨by decide, by decide +kernel, by decide +kernel⟩, by decide⟩

/-- The label of the last piece has three lines: the number of records is changed, the stop time is not. -/
example : labelLines (newValue demoTab 2 "RSS_2005_123.TAB".toList "2005".toList "123".toList) demoLabel (demoLabel.take 3) =
    ["RECORD_BYTES                         = 5\r\n".toList, "FILE_RECORDS                         = 2\r\n".toList,
      "MAXIMUM_RING_RADIUS                  =  87001.000   <km>\r\n".toList, "START_TIME                           = 2005-123T10:00:00\r\n".toList,
      "STOP_TIME                            = 2005-123T10:00:00\r\n".toList, "MINIMUM_OBSERVED_RING_ELEVATION      =   5.0000   <deg>\r\n".toList] := by
  decide +kernel

/-- A new line that is longer than all the old ones is cut. -/
theorem C143_cut_false : labelLines (newValue demoTab 2 "RSS_2005_123.TAB".toList "2005".toList "123".toList)
    ["^SERIES                              = \"A.TAB\"\n".toList] ["END\n".toList] = ["^SERIES                              = \"RSS_20\r\n".toList] := by
  decide +kernel

end Verif.Merge
