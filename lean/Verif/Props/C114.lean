import Verif.Model.OutName
import Mathlib.Data.List.Induction
import Mathlib.Tactic.Ring
import Mathlib.Tactic.IntervalCases
import Mathlib.Tactic.Linarith

/-!
# C114: names of the output files
-/
namespace Verif.Out
open Verif.Rsr

theorem value_from (s : List Char) (n : Nat) : s.foldl (fun n c => 10 * n + (c.toNat - 48)) n = n * 10 ^ s.length + value s := by
  unfold value
  induction s generalizing n with
  | nil => simp
  | cons c s ih =>
    rw [List.foldl_cons, List.foldl_cons, ih, ih (10 * 0 + (c.toNat - 48)), List.length_cons, pow_succ]
    ring

theorem value_append (a b : List Char) : value (a ++ b) = value a * 10 ^ b.length + value b := by
  rw [value, List.foldl_append]
  exact value_from b _

theorem value_lt {s : List Char} (h : s.all isDigit) : value s < 10 ^ s.length := by
  induction s using List.reverseRecOn with
  | nil => decide
  | append_singleton s c ih =>
    rw [List.all_append, Bool.and_eq_true] at h
    have h1 := ih h.1
    have h2 : c.toNat ≤ 57 := by
      have := h.2
      simp only [List.all_cons, List.all_nil, Bool.and_true, isDigit, Bool.and_eq_true, decide_eq_true_eq] at this
      exact this.2
    have h3 : value [c] = c.toNat - 48 := by simp [value]
    rw [value_append, h3, List.length_append, List.length_singleton, pow_succ]
    omega

theorem digit_char {d : Nat} (h : d < 10) : (Char.ofNat (48 + d)).toNat = 48 + d := by
  interval_cases d <;> rfl

theorem value_decimal (n : Nat) : value (decimal n) = n ∧ (decimal n).all isDigit ∧ decimal n ≠ [] := by
  induction n using Nat.strongRecOn with
  | _ n ih =>
    rw [decimal]
    split
    · rename_i h
      refine ⟨by simp [value, digit_char h], ?_, by simp⟩
      simp only [List.all_cons, List.all_nil, Bool.and_true, isDigit, digit_char h, Bool.and_eq_true, decide_eq_true_eq]
      omega
    · rename_i h
      obtain ⟨h1, h2, -⟩ := ih (n / 10) (by omega)
      have hd := digit_char (Nat.mod_lt n (by decide : 10 > 0))
      refine ⟨?_, ?_, by simp⟩
      · rw [value_append, h1]
        simp only [List.length_singleton, pow_one, value, List.foldl_cons, List.foldl_nil, hd]
        omega
      · rw [List.all_append, h2]
        simp only [List.all_cons, List.all_nil, Bool.and_true, isDigit, hd, Bool.true_and, Bool.and_eq_true, decide_eq_true_eq]
        have := Nat.mod_lt n (by decide : 10 > 0)
        omega

theorem length_decimal {n k : Nat} (h : 10 ^ k ≤ n) : k < (decimal n).length := by
  by_contra hc
  have h1 := value_lt (value_decimal n).2.1
  rw [(value_decimal n).1] at h1
  exact absurd (h1.trans_le (Nat.pow_le_pow_right (by decide) (not_lt.mp hc))) (not_lt.mpr h)

theorem value_lastFour {n : Nat} (h : 1000 ≤ n) : value (lastFour (decimal n)) = n % 10000 ∧ (lastFour (decimal n)).length = 4 ∧
    (lastFour (decimal n)).all isDigit := by
  have hl : 3 < (decimal n).length := length_decimal (by omega)
  have h4 : (lastFour (decimal n)).length = 4 := by rw [lastFour, List.length_drop]; omega
  have hd : (lastFour (decimal n)).all isDigit := by
    rw [List.all_eq_true]
    intro c hc
    exact List.all_eq_true.mp (value_decimal n).2.1 c (List.mem_of_mem_drop hc)
  refine ⟨?_, h4, hd⟩
  have e : value ((decimal n).take ((decimal n).length - 4) ++ lastFour (decimal n)) = n := by
    rw [lastFour, List.take_append_drop, (value_decimal n).1]
  rw [value_append, h4] at e
  have := value_lt hd
  rw [h4] at this
  omega

theorem last_of {p s : List Char} (hs : '_' ∉ s) : lastPart (p ++ '_' :: s) = s := by
  unfold lastPart
  rw [List.reverse_append, List.reverse_cons, List.append_assoc, List.takeWhile_append_of_pos]
  · simp
  · intro c hc
    simp only [decide_eq_true_eq]
    rintro rfl
    exact hs (List.mem_reverse.mp hc)

theorem before_of {p d s : List Char} (hd : '_' ∉ d) (hs : '_' ∉ s) : beforeLast (p ++ '_' :: d ++ '_' :: s) = .ok d := by
  have e : (p ++ '_' :: d ++ '_' :: s).reverse.dropWhile (fun c => decide (c ≠ '_')) = '_' :: (d.reverse ++ '_' :: p.reverse) := by
    rw [List.reverse_append, List.reverse_cons, List.append_assoc, List.dropWhile_append_of_pos]
    · simp
    · intro c hc
      simp only [decide_eq_true_eq]
      rintro rfl
      exact hs (List.mem_reverse.mp hc)
  unfold beforeLast
  rw [e]
  simp only
  rw [List.takeWhile_append_of_pos]
  · simp
  · intro c hc
    simp only [decide_eq_true_eq]
    rintro rfl
    exact hd (List.mem_reverse.mp hc)

/-- What is selected: for each file of the type and the day, the day with the four characters. -/
theorem sqn0_mem {filtyp day : List Char} : ∀ {l : List (List Char)} {r : List (List Char)}, sqn0 filtyp day l = .ok r →
    (∀ x ∈ l, filtyp.map upperC <:+: x → beforeLast x = .ok day → day ++ (lastPart x).take 4 ∈ r) ∧
    ∀ y ∈ r, ∃ x ∈ l, filtyp.map upperC <:+: x ∧ beforeLast x = .ok day ∧ y = day ++ (lastPart x).take 4
  | [], r, h => by
    cases h
    simp
  | x :: xs, r, h => by
    rw [sqn0] at h
    split at h
    · rename_i hi
      rcases hb : beforeLast x with e | d
      · simp only [hb, bind, Except.bind] at h; cases h
      rcases hr : sqn0 filtyp day xs with e | q
      · simp only [hb, hr, bind, Except.bind] at h; cases h
      simp only [hb, hr, bind, Except.bind, pure, Except.pure] at h
      injection h with h
      obtain ⟨i1, i2⟩ := sqn0_mem hr
      constructor
      · intro y hy hf hd
        rcases List.mem_cons.mp hy with rfl | hy
        · rw [hb] at hd
          injection hd with hd
          subst hd
          rw [if_pos rfl] at h
          rw [← h]
          exact List.mem_cons_self
        · have := i1 y hy hf hd
          rw [← h]
          split
          · exact List.mem_cons_of_mem _ this
          · exact this
      · intro y hy
        rw [← h] at hy
        split at hy
        · rename_i hd
          rcases List.mem_cons.mp hy with rfl | hy
          · exact ⟨x, List.mem_cons_self, hi, by rw [hb, hd], by rw [hd]⟩
          · obtain ⟨z, hz, i, a, b⟩ := i2 y hy
            exact ⟨z, List.mem_cons_of_mem _ hz, i, a, b⟩
        · obtain ⟨z, hz, i, a, b⟩ := i2 y hy
          exact ⟨z, List.mem_cons_of_mem _ hz, i, a, b⟩
    · rename_i hi
      obtain ⟨i1, i2⟩ := sqn0_mem h
      constructor
      · intro y hy hf hd
        rcases List.mem_cons.mp hy with rfl | hy
        · exact absurd hf hi
        · exact i1 y hy hf hd
      · intro y hy
        obtain ⟨z, hz, i, a, b⟩ := i2 y hy
        exact ⟨z, List.mem_cons_of_mem _ hz, i, a, b⟩

theorem ints_ok : ∀ {s : List (List Char)} {ns : List Nat}, s.mapM pyIntDigits = .ok ns → ns = s.map value ∧ ∀ x ∈ s, x.all isDigit
  | [], ns, h => by
    cases h
    simp
  | x :: s, ns, h => by
    rw [List.mapM_cons] at h
    by_cases hx : x ≠ [] ∧ x.all isDigit
    · rw [pyIntDigits, if_pos hx] at h
      rcases hr : s.mapM pyIntDigits with e | q
      · simp only [hr, bind, Except.bind] at h; cases h
      obtain ⟨h1, h2⟩ := ints_ok hr
      simp only [hr, bind, Except.bind, pure, Except.pure] at h
      injection h with h
      refine ⟨by rw [← h, h1]; rfl, ?_⟩
      intro y hy
      rcases List.mem_cons.mp hy with rfl | hy
      · exact hx.2
      · exact h2 y hy
    · rw [pyIntDigits, if_neg hx] at h
      simp only [bind, Except.bind] at h; cases h

theorem foldl_max_le {l : List Nat} {m b : Nat} (hm : m ≤ b) (h : ∀ x ∈ l, x ≤ b) : l.foldl max m ≤ b := by
  induction l generalizing m with
  | nil => exact hm
  | cons x l ih => exact ih (max_le hm (h x List.mem_cons_self)) fun y hy => h y (List.mem_cons_of_mem _ hy)

theorem le_foldl_max {l : List Nat} {m x : Nat} (h : x = m ∨ x ∈ l) : x ≤ l.foldl max m := by
  induction l generalizing m x with
  | nil => rcases h with rfl | h; exacts [le_rfl, by cases h]
  | cons y l ih =>
    rw [List.foldl_cons]
    rcases h with rfl | h
    · exact (le_max_left x y).trans (ih (m := max x y) (x := max x y) (Or.inl rfl))
    · rcases List.mem_cons.mp h with rfl | h
      · exact (le_max_right m x).trans (ih (m := max m x) (x := max m x) (Or.inl rfl))
      · exact ih (Or.inr h)

theorem zeros_of {s : List Char} (h4 : s.length = 4) (hd : s.all isDigit) (h0 : value s = 0) : s = "0000".toList := by
  match s, h4 with
  | [a, b, c, d], _ =>
    have z : ∀ x : Char, 48 ≤ x.toNat → x.toNat - 48 = 0 → x = '0' := by
      intro x h1 h2
      apply Char.ext
      apply UInt32.toNat_inj.mp
      have : x.toNat = 48 := by omega
      exact this
    simp only [List.all_cons, List.all_nil, isDigit, Bool.and_eq_true, decide_eq_true_eq] at hd
    simp only [value, List.foldl_cons, List.foldl_nil] at h0
    rw [z a (by omega) (by omega), z b (by omega) (by omega), z c (by omega) (by omega), z d (by omega) (by omega)]
    rfl

theorem upper_digit {c : Char} (h : isDigit c) : upperC c = c := by
  simp only [isDigit, Bool.and_eq_true, decide_eq_true_eq] at h
  rw [upperC, if_neg (by omega)]

theorem upper_digits {l : List Char} (h : l.all isDigit) : l.map upperC = l := by
  conv_rhs => rw [← List.map_id l]
  exact List.map_congr_left fun c hc => upper_digit (List.all_eq_true.mp h c hc)

theorem upper_twice (c : Char) : upperC (upperC c) = upperC c := by
  by_cases h : 97 ≤ c.toNat ∧ c.toNat ≤ 122
  · have e : upperC c = Char.ofNat (c.toNat - 32) := by rw [upperC, if_pos h]
    rw [e, upperC, if_neg]
    have : (Char.ofNat (c.toNat - 32)).toNat = c.toNat - 32 := by
      obtain ⟨h1, h2⟩ := h
      generalize c.toNat = n at h1 h2 ⊢
      interval_cases n <;> rfl
    omega
  · have e : upperC c = c := by rw [upperC, if_neg h]
    rw [e, e]

theorem nodig {l : List Char} (hl : l.all isDigit) : '_' ∉ l := by
  intro hm
  have := List.all_eq_true.mp hl _ hm
  revert this
  decide

/-- What the sequence number is: `0001` if no file is selected, else the greatest number plus one. -/
theorem seqNum_cases {filtyp day : List Char} {files : List (List Char)} {s : List Char} (hv : 10 ^ 7 ≤ value day)
    (hs : seqNum filtyp day (some files) = .ok s) :
    ∃ q, (sqn0 filtyp day (files.filter fun x => decide (x.head? ≠ some '.')) = .ok q ∨ files.filter (fun x => decide (x.head? ≠ some '.')) = [] ∧ q = []) ∧
      ((q = [] ∧ s = "0001".toList) ∨ (q ≠ [] ∧ ∃ M, (∃ y ∈ q, M = value y) ∧ (∀ y ∈ q, value y ≤ M) ∧ (∀ y ∈ q, y.all isDigit) ∧
        M ≤ value day * 10000 + 9999 ∧ value s = (M + 1) % 10000 ∧ s.length = 4 ∧ s.all isDigit)) := by
  simp only [seqNum] at hs
  by_cases hn : files.filter (fun x => decide (x.head? ≠ some '.')) = []
  · rw [if_pos hn] at hs
    injection hs with hs
    exact ⟨[], Or.inr ⟨hn, rfl⟩, Or.inl ⟨rfl, hs.symm⟩⟩
  rw [if_neg hn] at hs
  rcases hq : sqn0 filtyp day (files.filter fun x => decide (x.head? ≠ some '.')) with e | q
  · simp only [hq, bind, Except.bind] at hs; cases hs
  simp only [hq, bind, Except.bind] at hs
  obtain ⟨q1, q2⟩ := sqn0_mem hq
  refine ⟨q, Or.inl rfl, ?_⟩
  by_cases hqn : q = []
  · rw [if_pos hqn] at hs
    injection hs with hs
    exact Or.inl ⟨hqn, hs.symm⟩
  right
  refine ⟨hqn, ?_⟩
  rw [if_neg hqn] at hs
  rcases hm : q.mapM pyIntDigits with e | ns
  · simp only [hm] at hs; cases hs
  simp only [hm, pure, Except.pure] at hs
  injection hs with hs
  obtain ⟨n1, n2⟩ := ints_ok hm
  set M := ns.foldl max 0 with hM
  have up : ∀ y ∈ q, value y ≤ M := by
    intro y hy
    rw [hM, n1]
    exact le_foldl_max (Or.inr (List.mem_map.mpr ⟨_, hy, rfl⟩))
  -- the greatest number lies within the day
  have hle : M ≤ value day * 10000 + 9999 := by
    refine foldl_max_le (by omega) ?_
    intro v hv
    rw [n1] at hv
    obtain ⟨y, hy, rfl⟩ := List.mem_map.mp hv
    obtain ⟨x, -, -, -, rfl⟩ := q2 y hy
    have hd := n2 _ hy
    rw [List.all_append, Bool.and_eq_true] at hd
    have hlt := value_lt hd.2
    have hl : ((lastPart x).take 4).length ≤ 4 := by rw [List.length_take]; omega
    rw [value_append]
    have p4 : 10 ^ ((lastPart x).take 4).length ≤ 10 ^ 4 := Nat.pow_le_pow_right (by decide) hl
    have := Nat.mul_le_mul_left (value day) p4
    omega
  have hday : ∀ y ∈ q, value day ≤ value y := by
    intro y hy
    obtain ⟨x, -, -, -, rfl⟩ := q2 y hy
    rw [value_append]
    have p1 : 1 ≤ 10 ^ ((lastPart x).take 4).length := Nat.one_le_pow _ _ (by decide)
    have := Nat.mul_le_mul_left (value day) p1
    omega
  have hge : 1000 ≤ M + 1 := by
    obtain ⟨y, hy⟩ := List.exists_mem_of_ne_nil _ hqn
    have := up y hy
    have := hday y hy
    omega
  have hex : ∃ y ∈ q, M = value y := by
    by_contra hc
    push Not at hc
    obtain ⟨y, hy⟩ := List.exists_mem_of_ne_nil _ hqn
    have h1 := up y hy
    have h2 := hday y hy
    have : M ≤ M - 1 := by
      conv_lhs => rw [hM]
      refine foldl_max_le (by omega) ?_
      intro v hv
      rw [n1] at hv
      obtain ⟨z, hz, rfl⟩ := List.mem_map.mp hv
      have := up z hz
      have := hc z hz
      omega
    omega
  obtain ⟨v1, v2, v3⟩ := value_lastFour hge
  rw [hs] at v1 v2 v3
  exact ⟨M, hex, up, n2, hle, v1, v2, v3⟩

/-- The file is new: what is written (name and an ending without `_`) is not in the directory, unless the number has become 0000. -/
theorem C114_fresh {rest filtyp day : List Char} {files : List (List Char)} {s t : List Char} (hday : day.all isDigit)
    (hv : 10 ^ 7 ≤ value day) (hs : seqNum filtyp day (some files) = .ok s) (h0 : s ≠ "0000".toList)
    (ht : title ("RSS_".toList ++ rest) filtyp day (some files) = .ok t) (ext : List Char) (he : '_' ∉ ext) : written t ext ∉ files := by
  have et : t = "RSS_".toList ++ rest ++ '_' :: filtyp.map upperC ++ '_' :: day ++ '_' :: s := by
    unfold title at ht
    simp only [hs, bind, Except.bind, pure, Except.pure] at ht
    injection ht with ht
    exact ht.symm
  intro hmem
  obtain ⟨q, hq, hc⟩ := seqNum_cases hv hs
  have sdig : s.length = 4 ∧ s.all isDigit := by
    rcases hc with ⟨-, rfl⟩ | ⟨-, M, -, -, -, -, -, a, b⟩
    · decide
    · exact ⟨a, b⟩
  have ew : written t ext = ("RSS_".toList ++ rest.map upperC) ++ '_' :: filtyp.map upperC ++ '_' :: day ++ '_' :: (s ++ ext) := by
    rw [written, et]
    have h1 : (filtyp.map upperC).map upperC = filtyp.map upperC := by
      rw [List.map_map]
      exact List.map_congr_left fun c _ => upper_twice c
    have h2 : ("RSS_".toList).map upperC = "RSS_".toList := by decide
    have h3 : upperC '_' = '_' := by decide
    simp only [List.map_append, List.map_cons, h1, h2, h3, upper_digits hday, upper_digits sdig.2, List.append_assoc, List.cons_append]
  have hvis : written t ext ∈ files.filter fun x => decide (x.head? ≠ some '.') := by
    rw [List.mem_filter]
    refine ⟨hmem, ?_⟩
    rw [ew]
    simp
  rcases hq with hq | ⟨hn, -⟩
  swap
  · rw [hn] at hvis; cases hvis
  obtain ⟨q1, -⟩ := sqn0_mem hq
  have hue : '_' ∉ s ++ ext := by simp [nodig sdig.2, he]
  have hin := q1 _ hvis ⟨"RSS_".toList ++ rest.map upperC ++ ['_'], '_' :: day ++ '_' :: (s ++ ext), by rw [ew]; simp⟩
      (by rw [ew]; exact before_of (nodig hday) hue)
  rw [ew, last_of hue, List.take_append_of_le_length (by omega), List.take_of_length_le (by omega)] at hin
  rcases hc with ⟨rfl, -⟩ | ⟨-, M, -, up, -, hle, v1, v2, v3⟩
  · cases hin
  have hval := up _ hin
  rw [value_append, v2, v1] at hval
  have hr : (M + 1) % 10000 ≠ 0 := fun hz => h0 (zeros_of v2 v3 (by rw [v1, hz]))
  omega

/-- The number continues the series: if no file of the type and the day is visible it is 0001; else, if the four characters of all of them are
there, it is greater by one (modulo 10000) than the number of one of them, and that one is the greatest. -/
theorem C114_next {filtyp day : List Char} {files : List (List Char)} {s : List Char} (hv : 10 ^ 7 ≤ value day)
    (hs : seqNum filtyp day (some files) = .ok s)
    (h4 : ∀ x ∈ files, beforeLast x = .ok day → 4 ≤ (lastPart x).length) :
    ((∀ x ∈ files, x.head? ≠ some '.' → filtyp.map upperC <:+: x → beforeLast x ≠ .ok day) → s = "0001".toList) ∧
    ∀ x ∈ files, x.head? ≠ some '.' → filtyp.map upperC <:+: x → beforeLast x = .ok day →
      ∃ y ∈ files, beforeLast y = .ok day ∧ value s = (value ((lastPart y).take 4) + 1) % 10000 ∧
        value ((lastPart x).take 4) ≤ value ((lastPart y).take 4) ∧ s.length = 4 ∧ s.all isDigit := by
  obtain ⟨q, hq, hc⟩ := seqNum_cases hv hs
  have vis : ∀ x, x ∈ files.filter (fun x => decide (x.head? ≠ some '.')) ↔ x ∈ files ∧ x.head? ≠ some '.' := by
    intro x
    rw [List.mem_filter, decide_eq_true_eq]
  constructor
  · intro hno
    rcases hc with ⟨-, h⟩ | ⟨hne, -⟩
    · exact h
    · rcases hq with hq | ⟨-, hq⟩
      · obtain ⟨y, hy⟩ := List.exists_mem_of_ne_nil _ hne
        obtain ⟨x, hx, i, a, -⟩ := (sqn0_mem hq).2 y hy
        exact absurd a (hno x ((vis x).mp hx).1 ((vis x).mp hx).2 i)
      · exact absurd hq hne
  · intro x hx hd hi hb
    rcases hq with hq | ⟨hn, -⟩
    swap
    · have := (vis x).mpr ⟨hx, hd⟩
      rw [hn] at this
      cases this
    obtain ⟨q1, q2⟩ := sqn0_mem hq
    have hin := q1 x ((vis x).mpr ⟨hx, hd⟩) hi hb
    rcases hc with ⟨rfl, -⟩ | ⟨-, M, ⟨y, hy, hM⟩, up, -, hle, v1, v2, v3⟩
    · cases hin
    obtain ⟨z, hz, -, hzb, rfl⟩ := q2 y hy
    have hx4 : ((lastPart x).take 4).length = 4 := by rw [List.length_take]; have := h4 x hx hb; omega
    have hz4 : ((lastPart z).take 4).length = 4 := by rw [List.length_take]; have := h4 z ((vis z).mp hz).1 hzb; omega
    have h1 := up _ hin
    rw [hM, value_append, value_append, hx4, hz4] at h1
    rw [hM, value_append, hz4] at v1
    exact ⟨z, ((vis z).mp hz).1, hzb, by omega, by omega, v2, v3⟩

/-- The concrete directory of the examples. -/
def exDir : List (List Char) := [".DS_Store".toList, "RSS_2005_123_X43_I_GEO_20240101_0003.TAB".toList, "RSS_2005_123_X43_I_GEO_20240101_0011.TAB".toList,
  "RSS_2005_123_X43_I_CAL_20240101_0042.TAB".toList, "RSS_2005_123_X43_I_GEO_20231231_0050.TAB".toList]

example : "20240101".toList.all isDigit ∧ 10 ^ 7 ≤ value "20240101".toList ∧ seqNum "geo".toList "20240101".toList (some exDir) = .ok "0012".toList ∧
    title "RSS_2005_123_X43_I".toList "geo".toList "20240101".toList (some exDir) = .ok "RSS_2005_123_X43_I_GEO_20240101_0012".toList ∧
    '_' ∉ ".TAB".toList := by decide +kernel

example : ∀ x ∈ exDir, beforeLast x = .ok "20240101".toList → 4 ≤ (lastPart x).length := by decide +kernel

/-- What is claimed: an output file never replaces an older one. -/
def Claim : Prop := ∀ (rest filtyp day ext : List Char) (files : List (List Char)) (t : List Char), day.all isDigit → day.length = 8 →
  10 ^ 7 ≤ value day → title ("RSS_".toList ++ rest) filtyp day (some files) = .ok t → written t ext ∉ files

/-- It fails after 9999 files (the number becomes 0000 and stays there) … -/
theorem C114_wrap_false : ¬ Claim ∧
    seqNum "GEO".toList "20240101".toList (some ["RSS_2005_123_X43_I_GEO_20240101_9999.TAB".toList]) = .ok "0000".toList ∧
    seqNum "GEO".toList "20240101".toList (some ["RSS_2005_123_X43_I_GEO_20240101_9999.TAB".toList,
      "RSS_2005_123_X43_I_GEO_20240101_0000.TAB".toList]) = .ok "0000".toList := by
  refine ⟨?_, by decide +kernel, by decide +kernel⟩
  intro h
  refine h "2005_123_X43_I".toList "GEO".toList "20240101".toList ".TAB".toList ["RSS_2005_123_X43_I_GEO_20240101_9999.TAB".toList,
    "RSS_2005_123_X43_I_GEO_20240101_0000.TAB".toList] "RSS_2005_123_X43_I_GEO_20240101_0000".toList (by decide +kernel) (by decide +kernel)
    (by decide +kernel) (by decide +kernel) ?_
  decide +kernel

/-- … and with an `add_suffix` that contains `_` (the files with it are not counted). -/
theorem C114_suffix_false : ¬ Claim ∧
    title "RSS_2005_123_X43_I".toList "TAU_01000M".toList "20240101".toList (some ["RSS_2005_123_X43_I_TAU_01000M_20240101_0001.TAB_psi".toList]) =
      .ok "RSS_2005_123_X43_I_TAU_01000M_20240101_0001".toList := by
  refine ⟨?_, by decide +kernel⟩
  intro h
  refine h "2005_123_X43_I".toList "TAU_01000M".toList "20240101".toList ".TAB_psi".toList
    ["RSS_2005_123_X43_I_TAU_01000M_20240101_0001.TAB_psi".toList] "RSS_2005_123_X43_I_TAU_01000M_20240101_0001".toList (by decide +kernel)
    (by decide +kernel) (by decide +kernel) (by decide +kernel) ?_
  decide +kernel

/-- A file of the type without `_` in its name (for example `GEO.TAB`) stops the program. -/
theorem C114_stray (filtyp day : List Char) (l : List (List Char)) (x : List Char) (hx : filtyp.map upperC <:+: x) (hu : '_' ∉ x)
    (hd : x.head? ≠ some '.') : seqNum filtyp day (some (x :: l)) = .error .index := by
  have e : beforeLast x = .error .index := by
    unfold beforeLast
    have : x.reverse.dropWhile (fun c => decide (c ≠ '_')) = [] := by
      rw [← List.append_nil x.reverse, List.dropWhile_append_of_pos, List.dropWhile_nil]
      intro c hc
      simp only [decide_eq_true_eq]
      rintro rfl
      exact hu (List.mem_reverse.mp hc)
    rw [this]
  have hf : (x :: l).filter (fun x => decide (x.head? ≠ some '.')) = x :: l.filter fun x => decide (x.head? ≠ some '.') := by
    rw [List.filter_cons, if_pos (by simpa using hd)]
  simp only [seqNum]
  rw [hf, if_neg (by simp), sqn0, if_pos hx]
  simp only [e, bind, Except.bind]

example : "geo".toList.map upperC <:+: "GEO.TAB".toList ∧ '_' ∉ "GEO.TAB".toList ∧ ("GEO.TAB".toList).head? ≠ some '.' := by decide

/-- All files of a profile in one direction go to the same directory, outside revs 53-89 and without `DIR`. -/
theorem C114_directory_partial {q : RevInfo} (hp : q.prof = 'I' ∨ q.prof = 'E') (hr : q.rev < 53 ∨ 89 < q.rev) (hd : q.dir = false)
    (rev head : List Char) (tau dlp sum : Bool) : dirs q rev head tau dlp sum = dirs q rev head false false false := by
  have h1 : ¬ (53 ≤ q.rev ∧ q.rev ≤ 89) := by omega
  have h2 : q.prof ≠ 'B' := by rcases hp with h | h <;> rw [h] <;> decide
  unfold dirs letters
  simp only [h1, h2, hd, if_false, Bool.false_eq_true, false_and]
  cases tau <;> rfl

example : (⟨'I', 7, false, false⟩ : RevInfo).prof = 'I' ∧ (⟨'I', 7, false, false⟩ : RevInfo).rev < 53 ∧
    dirs ⟨'I', 7, false, false⟩ "007".toList "RSS_2005_123_X43".toList true false false =
      ["Rev007/Rev007I/Rev007I_RSS_2005_123_X43_I/".toList] := by decide +kernel

/-- In revs 53-89 the profile of one direction is put beside its geometry file only if that is a chord (`B`). -/
theorem C114_directory_false : ¬ ∀ (q : RevInfo) (rev head : List Char), q.prof = 'I' ∨ q.prof = 'E' → q.dir = false →
    dirs q rev head true false false = dirs q rev head false false false := by
  intro h
  have := h ⟨'I', 60, false, false⟩ "060".toList "RSS_2008_100_X43".toList (Or.inl rfl) rfl
  revert this
  decide +kernel

/-- A chord: geometry, calibration and profile are written for both directions, in directories with `C`; the result of the inversion of such a
profile would go to a single directory, with the letter `B`. -/
theorem C114_chord {q : RevInfo} (hp : q.prof = 'B') (hd : q.dir = false) (hn : q.per = false) (dlp sum : Bool) :
    letters q false dlp sum = (['I', 'E'], ['C']) ∧ (letters q true dlp sum).1 = ['B'] := by
  unfold letters
  simp [hp, hd, hn]

example : (⟨'B', 60, false, false⟩ : RevInfo).prof = 'B' := rfl

/-- The directory of a file of one direction, for every type of file: the rev twice, `P` for occultations by the planet, `C` for chords (that is, for
profiles, inversions and summaries if the rev is known to have both directions, and for inversions in revs 53 to 89), and the direction at the end of both
parts. -/
theorem C114_directory_name {q : RevInfo} (hp : q.prof = 'I' ∨ q.prof = 'E') (rev head : List Char) (tau dlp sum : Bool) :
    ∃ p c : List Char, dirs q rev head tau dlp sum = ["Rev".toList ++ rev ++ "/Rev".toList ++ rev ++ p ++ c ++ [q.prof] ++ "/Rev".toList ++ rev ++ p ++ c ++
        [q.prof] ++ '_' :: head ++ ['_', q.prof, '/']] ∧
      p = (if q.per then ['P'] else []) ∧
      c = (if q.dir = true ∧ (tau = true ∨ dlp = true ∨ sum = true) ∨ tau = true ∧ 53 ≤ q.rev ∧ q.rev ≤ 89 then ['C'] else []) := by
  have h2 : q.prof ≠ 'B' := by rcases hp with h | h <;> rw [h] <;> decide
  refine ⟨_, _, ?_, rfl, rfl⟩
  obtain ⟨prof, n, dir, per⟩ := q
  simp only at h2
  cases tau <;> cases dlp <;> cases sum <;> cases dir <;> cases per <;> by_cases h : 53 ≤ n ∧ n ≤ 89 <;>
    simp only [dirs, letters, h2, h, if_true, if_false, Bool.false_eq_true, and_true, and_false, or_true, or_false, true_and, false_and, and_self,
      List.map_cons, List.map_nil, List.append_assoc, List.cons_append, List.nil_append]

example : dirs ⟨'E', 60, false, true⟩ "060".toList "RSS_2008_100_X43".toList true false false =
    ["Rev060/Rev060PCE/Rev060PCE_RSS_2008_100_X43_E/".toList] := by decide +kernel

end Verif.Out
