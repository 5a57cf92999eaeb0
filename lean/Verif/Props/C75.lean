import Verif.Props.C74

/-!
# C75: from ephemeris time to seconds past midnight
-/
namespace Verif.Rsr
open Spec

theorem getD_lt {α : Type} (l : List α) (d : α) (i : Nat) (h : i < l.length) : l.getD i d = l[i] := by
  rw [List.getD_eq_getElem?_getD, List.getElem?_eq_getElem h]; rfl

theorem getD_map_of_lt (f : ℚ → ℚ) (l : List ℚ) (i : Nat) (h : i < l.length) : (l.map f).getD i 0 = f (l.getD i 0) := by
  rw [getD_lt _ _ _ (by rw [List.length_map]; exact h), getD_lt _ _ _ h, List.getElem_map]

theorem addFrom_length (n : Nat) (x : ℚ) (c : List ℚ) : (addFrom n x c).length = c.length := by
  simp [addFrom]; omega

theorem addFrom_getD (n : Nat) (x : ℚ) (c : List ℚ) (j : Nat) (h : j < c.length) :
    (addFrom n x c).getD j 0 = c.getD j 0 + if n ≤ j then x else 0 := by
  unfold addFrom
  rw [List.getD_eq_getElem?_getD, List.getD_eq_getElem?_getD]
  by_cases k : n ≤ j
  · rw [if_pos k, List.getElem?_append_right (by simp; omega)]
    have : j - (c.take n).length + n = j := by rw [List.length_take]; omega
    rw [List.getElem?_map, List.getElem?_drop, Nat.add_comm n, this, List.getElem?_eq_getElem h]
    rfl
  · rw [if_neg k, List.getElem?_append_left (by simp; omega), List.getElem?_take_of_lt (by omega), add_zero]

theorem unwrapFold (l : List ℚ) (bs : List Nat) : ∀ (c : List ℚ) (j : Nat), j < c.length →
    (bs.foldl (fun c i => addFrom (i + 1) (l.getD i 0) c) c).getD j 0 =
      c.getD j 0 + ((bs.filter fun i => i < j).map fun i => l.getD i 0).sum := by
  induction bs with
  | nil => intro c j _; simp
  | cons b bs ih =>
    intro c j hj
    rw [List.foldl_cons, ih _ j (by rw [addFrom_length]; exact hj), addFrom_getD _ _ _ _ hj, List.filter_cons]
    by_cases k : b < j
    · rw [if_pos (by omega), if_pos (by simpa using k), List.map_cons, List.sum_cons]; ring
    · rw [if_neg (by omega), if_neg (by simpa using k)]; ring

theorem unwrap_length (l : List ℚ) : (unwrapDays l).length = l.length := by
  unfold unwrapDays
  generalize dayBreaks l = bs
  have : ∀ c : List ℚ, (bs.foldl (fun c i => addFrom (i + 1) (l.getD i 0) c) c).length = c.length := by
    induction bs with
    | nil => intro c; rfl
    | cons b bs ih => intro c; rw [List.foldl_cons, ih, addFrom_length]
  exact this l

theorem unwrap_getD (l : List ℚ) (j : Nat) (h : j < l.length) :
    (unwrapDays l).getD j 0 = l.getD j 0 + (((dayBreaks l).filter fun i => i < j).map fun i => l.getD i 0).sum :=
  unwrapFold l _ l j h

/-- The breaks before `j + 1` are those before `j` and perhaps `j`. -/
theorem breaks_succ (l : List ℚ) (j : Nat) (h : j + 1 < l.length) :
    (dayBreaks l).filter (fun i => i < j + 1) =
      (dayBreaks l).filter (fun i => i < j) ++ if l.getD (j + 1) 0 < l.getD j 0 then [j] else [] := by
  unfold dayBreaks
  simp only [List.filter_filter]
  have hr : List.range (l.length - 1) = List.range j ++ [j] ++ (List.range (l.length - 1 - (j + 1))).map (j + 1 + ·) := by
    rw [← List.range_succ, ← List.range_add]; congr 1; omega
  rw [hr]
  simp only [List.filter_append]
  have hz : ∀ k, ((List.range (l.length - 1 - (j + 1))).map (j + 1 + ·)).filter
      (fun i => decide (i < j + k) && decide (l.getD (i + 1) 0 < l.getD i 0)) = [] ∨ 1 < k := by
    intro k
    by_cases hk : 1 < k
    · exact Or.inr hk
    · left
      rw [List.filter_eq_nil_iff]
      intro i hi
      rw [List.mem_map] at hi
      obtain ⟨a, -, rfl⟩ := hi
      have : ¬ (j + 1 + a < j + k) := by omega
      simp [this]
  have z1 := (hz 1).resolve_right (by omega)
  have z0 := (hz 0).resolve_right (by omega)
  rw [add_zero] at z0
  rw [z1, z0]
  have a1 : (List.range j).filter (fun i => decide (i < j + 1) && decide (l.getD (i + 1) 0 < l.getD i 0)) =
      (List.range j).filter (fun i => decide (i < j) && decide (l.getD (i + 1) 0 < l.getD i 0)) := by
    apply List.filter_congr
    intro i hi
    rw [List.mem_range] at hi
    have : i < j + 1 := by omega
    simp [this, hi]
  rw [a1]
  simp only [List.append_nil, List.append_assoc]
  congr 1
  by_cases k : l.getD (j + 1) 0 < l.getD j 0
  · simp [List.filter_cons, k]
  · simp [List.filter_cons, k]

/-- One step of the result. -/
theorem unwrap_step (l : List ℚ) (j : Nat) (h : j + 1 < l.length) :
    (unwrapDays l).getD (j + 1) 0 = (unwrapDays l).getD j 0 +
      if l.getD (j + 1) 0 < l.getD j 0 then l.getD (j + 1) 0 else l.getD (j + 1) 0 - l.getD j 0 := by
  rw [unwrap_getD l _ h, unwrap_getD l j (by omega), breaks_succ l j h]
  by_cases k : l.getD (j + 1) 0 < l.getD j 0
  · rw [if_pos k, if_pos k, List.map_append, List.sum_append]; simp; ring
  · rw [if_neg k, if_neg k, List.append_nil]; ring

theorem unwrap_zero (l : List ℚ) (h : 0 < l.length) : (unwrapDays l).getD 0 0 = l.getD 0 0 := by
  rw [unwrap_getD l 0 h]
  have : (dayBreaks l).filter (fun i => decide (i < 0)) = [] := by
    rw [List.filter_eq_nil_iff]; intro i _; simp
  rw [this]; simp

theorem utcSpm_instant (u : Utc) : utcSpm u = instant u - midnight u.year u.doy := by
  unfold utcSpm instant; ring

theorem utcSpm_range {u : Utc} (h : ValidUtc u) : 0 ≤ utcSpm u ∧ utcSpm u < 86400 := by
  obtain ⟨-, -, h1, h2, h3, h4, h5, h6⟩ := h
  have a : (0 : ℚ) ≤ u.hour := by exact_mod_cast h1
  have b : (u.hour : ℚ) ≤ 23 := by
    have : u.hour ≤ 23 := by omega
    exact_mod_cast this
  have c : (0 : ℚ) ≤ u.minute := by exact_mod_cast h3
  have d : (u.minute : ℚ) ≤ 59 := by
    have : u.minute ≤ 59 := by omega
    exact_mod_cast this
  unfold utcSpm
  constructor <;> linarith

theorem etToSpm_ok (et2utc : ℚ → Utc) (refDoy : Int) (e : ℚ) (es : List ℚ)
    (h : refDoy = 0 ∨ refDoy ≤ (et2utc e).doy) :
    etToSpm et2utc refDoy (e :: es) = .ok ((unwrapDays ((e :: es).map fun t => utcSpm (et2utc t))).map
      (· + if refDoy = 0 then 0 else (((et2utc e).doy - refDoy : ℤ) : ℚ) * 24 * 60 * 60)) := by
  unfold etToSpm
  by_cases k : refDoy = 0
  · simp only [if_pos k, add_zero, List.map_id']
  · simp only [if_neg k]
    rw [if_neg (by omega)]

/-- **C75** (partial) For every increasing list of times on one day, every result is the number of seconds since the midnight
before; with a reference day earlier in the same year, since the midnight at the beginning of that day.
Missing: lists that pass midnight, see `C75_midnight_false`, and reference days in the year before, see `C75_year_false`. -/
theorem C75_day_partial (et2utc : ℚ → Utc) (ets : List ℚ) (refDoy y d : Int)
    (hday : ∀ t ∈ ets, (et2utc t).year = y ∧ (et2utc t).doy = d)
    (hmono : ∀ i, i + 1 < ets.length → instant (et2utc (ets.getD i 0)) ≤ instant (et2utc (ets.getD (i + 1) 0)))
    (href : refDoy = 0 ∨ 0 < refDoy ∧ refDoy ≤ d) :
    ∃ r, etToSpm et2utc refDoy ets = .ok r ∧ r.length = ets.length ∧
      ∀ i, i < ets.length → r.getD i 0 =
        instant (et2utc (ets.getD i 0)) - midnight y (if refDoy = 0 then d else refDoy) := by
  match ets, hday, hmono with
  | [], _, _ => exact ⟨[], rfl, rfl, fun i h => absurd h (Nat.not_lt_zero _)⟩
  | e :: es, hday, hmono =>
    have hd : (et2utc e).doy = d := (hday e List.mem_cons_self).2
    refine ⟨_, etToSpm_ok et2utc refDoy e es (by omega), by simp [unwrap_length], fun i hi => ?_⟩
    set l := (e :: es).map fun t => utcSpm (et2utc t) with hl
    have hlen : l.length = (e :: es).length := by simp [hl]
    have key : ∀ j, j < (e :: es).length →
        l.getD j 0 = instant (et2utc ((e :: es).getD j 0)) - midnight y d := by
      intro j hj
      rw [hl]
      have : ((e :: es).map fun t => utcSpm (et2utc t)).getD j 0 = utcSpm (et2utc ((e :: es).getD j 0)) := by
        exact getD_map_of_lt (fun t => utcSpm (et2utc t)) _ _ hj
      rw [this, utcSpm_instant]
      have hm : (e :: es).getD j 0 ∈ (e :: es) := by
        rw [getD_lt _ _ _ hj]; exact List.getElem_mem _
      rw [(hday _ hm).1, (hday _ hm).2]
    have un : ∀ j, j < (e :: es).length → (unwrapDays l).getD j 0 = l.getD j 0 := by
      intro j
      induction j with
      | zero => intro hj; exact unwrap_zero l (by omega)
      | succ j ih =>
        intro hj
        rw [unwrap_step l j (by omega), ih (by omega)]
        have := hmono j hj
        rw [if_neg (by rw [key j (by omega), key (j + 1) hj]; linarith)]
        ring
    rw [getD_map_of_lt _ _ i (by rw [unwrap_length]; omega), un i hi, key i hi, hd]
    by_cases k : refDoy = 0
    · rw [if_pos k, if_pos k, add_zero]
    · rw [if_neg k, if_neg k]
      unfold midnight
      push_cast
      ring

/-- SPICE for an example: `t` seconds after the beginning of day `d` of 2005. -/
def demoUtc (d : Int) (t : ℚ) : Utc := spmToUtc t d 2005

example : etToSpm (demoUtc 123) 122 [10, 20, 3600] = .ok [86410, 86420, 90000] := by decide +kernel

example : ∃ r, etToSpm (demoUtc 123) 122 [10, 20, 3600] = .ok r ∧ r.length = 3 := by
  obtain ⟨r, e, h, -⟩ := C75_day_partial (demoUtc 123) [10, 20, 3600] 122 2005 123 (by decide +kernel)
    (by
      intro i hi
      have : i = 0 ∨ i = 1 := by simp at hi; omega
      rcases this with rfl | rfl <;> decide +kernel) (by omega)
  exact ⟨r, e, h⟩

/-- **C75** is false for every list that passes midnight with less than a day between neighbouring times: from there on the
results are too small by the time that was left before midnight at the last time of the first day. -/
theorem C75_midnight_false (et2utc : ℚ → Utc) (a b : List ℚ) (ha : a ≠ []) (hb : b ≠ []) (y d y' d' : Int)
    (hnext : midnight y' d' = midnight y d + 86400)
    (hdayA : ∀ t ∈ a, (et2utc t).year = y ∧ (et2utc t).doy = d ∧ ValidUtc (et2utc t))
    (hdayB : ∀ t ∈ b, (et2utc t).year = y' ∧ (et2utc t).doy = d' ∧ ValidUtc (et2utc t))
    (hmonoA : ∀ i, i + 1 < a.length → instant (et2utc (a.getD i 0)) ≤ instant (et2utc (a.getD (i + 1) 0)))
    (hmonoB : ∀ i, i + 1 < b.length → instant (et2utc (b.getD i 0)) ≤ instant (et2utc (b.getD (i + 1) 0)))
    (hgap : instant (et2utc (b.headD 0)) - instant (et2utc (a.getLastD 0)) < 86400) :
    ∃ r, etToSpm et2utc 0 (a ++ b) = .ok r ∧
      (∀ i, i < a.length → r.getD i 0 = instant (et2utc (a.getD i 0)) - midnight y d) ∧
      (∀ i, i < b.length → r.getD (a.length + i) 0 =
        instant (et2utc (b.getD i 0)) - midnight y d - (midnight y d + 86400 - instant (et2utc (a.getLastD 0)))) ∧
      0 < midnight y d + 86400 - instant (et2utc (a.getLastD 0)) := by
  obtain ⟨a0, as, rfl⟩ := List.exists_cons_of_ne_nil ha
  obtain ⟨b0, bs, rfl⟩ := List.exists_cons_of_ne_nil hb
  have hok := etToSpm_ok et2utc 0 a0 (as ++ (b0 :: bs)) (Or.inl rfl)
  simp only [if_pos, add_zero, List.map_id'] at hok
  refine ⟨_, hok, ?_⟩
  set A := a0 :: as with hA
  set B := b0 :: bs with hB
  have hAB : a0 :: (as ++ B) = A ++ B := rfl
  rw [hAB]
  set l := (A ++ B).map fun t => utcSpm (et2utc t) with hl
  have hlen : l.length = A.length + B.length := by simp [hl]
  have hA0 : 0 < A.length := by simp [hA]
  have hB0 : 0 < B.length := by simp [hB]
  have keyA : ∀ j, j < A.length → l.getD j 0 = instant (et2utc (A.getD j 0)) - midnight y d := by
    intro j hj
    have : l.getD j 0 = utcSpm (et2utc (A.getD j 0)) := by
      rw [hl, getD_map_of_lt _ _ _ (by rw [List.length_append]; omega)]
      simp only [List.getD_eq_getElem?_getD, List.getElem?_append_left hj]
    have hm : A.getD j 0 ∈ A := by rw [getD_lt _ _ _ hj]; exact List.getElem_mem _
    rw [this, utcSpm_instant, (hdayA _ hm).1, (hdayA _ hm).2.1]
  have keyB : ∀ j, j < B.length → l.getD (A.length + j) 0 = instant (et2utc (B.getD j 0)) - midnight y d - 86400 := by
    intro j hj
    have : l.getD (A.length + j) 0 = utcSpm (et2utc (B.getD j 0)) := by
      rw [hl, getD_map_of_lt _ _ _ (by rw [List.length_append]; omega)]
      simp only [List.getD_eq_getElem?_getD, List.getElem?_append_right (Nat.le_add_right _ _), Nat.add_sub_cancel_left]
    have hm : B.getD j 0 ∈ B := by rw [getD_lt _ _ _ hj]; exact List.getElem_mem _
    rw [this, utcSpm_instant, (hdayB _ hm).1, (hdayB _ hm).2.1, hnext]; ring
  have last : A.getLastD 0 = A.getD (A.length - 1) 0 := by
    rw [List.getLastD_eq_getLast?, List.getD_eq_getElem?_getD, List.getLast?_eq_getElem?]
  have head : B.headD 0 = B.getD 0 0 := rfl
  have unA : ∀ j, j < A.length → (unwrapDays l).getD j 0 = l.getD j 0 := by
    intro j
    induction j with
    | zero => intro hj; exact unwrap_zero l (by omega)
    | succ j ih =>
      intro hj
      rw [unwrap_step l j (by omega), ih (by omega)]
      have := hmonoA j hj
      rw [if_neg (by rw [keyA j (by omega), keyA (j + 1) hj]; linarith)]
      ring
  have unB : ∀ j, j < B.length → (unwrapDays l).getD (A.length + j) 0 =
      l.getD (A.length - 1) 0 + l.getD (A.length + j) 0 := by
    intro j
    induction j with
    | zero =>
      intro hj
      have e : A.length + 0 = (A.length - 1) + 1 := by omega
      rw [e, unwrap_step l _ (by omega), unA _ (by omega)]
      rw [last, head] at hgap
      have k : l.getD (A.length - 1 + 1) 0 < l.getD (A.length - 1) 0 := by
        rw [← e, keyB 0 hj, keyA _ (by omega)]; linarith
      rw [if_pos k]
    | succ j ih =>
      intro hj
      have e : A.length + (j + 1) = (A.length + j) + 1 := by omega
      have := hmonoB j hj
      rw [e, unwrap_step l _ (by omega), ih (by omega), ← e]
      rw [if_neg (by rw [keyB j (by omega), keyB (j + 1) hj]; linarith)]
      ring
  refine ⟨fun i hi => by rw [unA i hi, keyA i hi], fun i hi => ?_, ?_⟩
  · rw [unB i hi, keyB i hi, keyA _ (by omega), last]; ring
  · have hm : A.getLastD 0 ∈ A := by
      rw [last, getD_lt _ _ _ (by omega)]; exact List.getElem_mem _
    have := (utcSpm_range (hdayA _ hm).2.2).2
    rw [utcSpm_instant, (hdayA _ hm).1, (hdayA _ hm).2.1] at this
    linarith

/-- Two times 400 s apart, 300 s before and 100 s after midnight: the results differ by 100 s. -/
example : etToSpm (demoUtc 123) 0 [86100, 86500] = .ok [86100, 86200] := by decide +kernel

/-- **C75** is false for a reference day in the previous year: the day numbers are compared without the years, so every list that
starts on a smaller day number is rejected. -/
theorem C75_year_false (et2utc : ℚ → Utc) (e : ℚ) (es : List ℚ) (refDoy : Int) (h : (et2utc e).doy < refDoy)
    (h0 : refDoy ≠ 0) : etToSpm et2utc refDoy (e :: es) = .error .value := by
  unfold etToSpm
  simp only [if_neg h0]
  rw [if_pos (by omega)]

/-- Ten seconds after the end of 2005, reference day 365 (ten seconds before). -/
example : (demoUtc 365 86410).year = 2006 ∧ etToSpm (demoUtc 365) 365 [86410] = .error .value :=
  ⟨by decide +kernel, C75_year_false _ _ _ _ (by decide +kernel) (by decide)⟩

/-- **C75** The results never decrease, for every list of times whatever. -/
theorem C75_monotone (et2utc : ℚ → Utc) (refDoy : Int) (ets : List ℚ) (hv : ∀ t ∈ ets, ValidUtc (et2utc t)) (r : List ℚ)
    (h : etToSpm et2utc refDoy ets = .ok r) : r.length = ets.length ∧ r.Pairwise (· ≤ ·) := by
  match ets, hv, h with
  | [], _, h => cases h; exact ⟨rfl, List.Pairwise.nil⟩
  | e :: es, hv, h =>
    have hr : refDoy = 0 ∨ refDoy ≤ (et2utc e).doy := by
      by_contra hc
      rw [not_or] at hc
      rw [C75_year_false et2utc e es refDoy (by omega) hc.1] at h
      cases h
    rw [etToSpm_ok et2utc refDoy e es hr] at h
    cases h
    refine ⟨by simp [unwrap_length], ?_⟩
    rw [List.pairwise_map]
    set l := (e :: es).map fun t => utcSpm (et2utc t) with hl
    have pos : ∀ j, 0 ≤ l.getD j 0 := by
      intro j
      rw [List.getD_eq_getElem?_getD]
      cases hj : l[j]? with
      | none => exact le_refl _
      | some x =>
        have := List.mem_of_getElem? hj
        rw [hl, List.mem_map] at this
        obtain ⟨t, ht, rfl⟩ := this
        exact (utcSpm_range (hv t ht)).1
    have step : ∀ j, j + 1 < l.length → (unwrapDays l).getD j 0 ≤ (unwrapDays l).getD (j + 1) 0 := by
      intro j hj
      rw [unwrap_step l j hj]
      have := pos (j + 1)
      split_ifs with k
      · linarith
      · linarith [not_lt.mp k]
    have mono : ∀ k j, j + k < l.length → (unwrapDays l).getD j 0 ≤ (unwrapDays l).getD (j + k) 0 := by
      intro k
      induction k with
      | zero => intro j _; exact le_refl _
      | succ k ih => intro j hj; exact le_trans (ih j (by omega)) (step (j + k) (by omega))
    rw [List.pairwise_iff_getElem]
    intro i j hi hj hij
    rw [unwrap_length] at hi hj
    have := mono (j - i) i (by omega)
    rw [Nat.add_sub_cancel' hij.le, getD_lt _ _ _ (by rw [unwrap_length]; exact hi),
      getD_lt _ _ _ (by rw [unwrap_length]; exact hj)] at this
    linarith

example : ∃ r, etToSpm (demoUtc 123) 0 [86100, 86500] = .ok r ∧ r.Pairwise (· ≤ ·) := by
  have e : etToSpm (demoUtc 123) 0 [86100, 86500] = .ok [86100, 86200] := by decide +kernel
  refine ⟨_, e, (C75_monotone _ _ _ (fun t ht => ?_) _ e).2⟩
  have : t = 86100 ∨ t = 86500 := by simpa using ht
  rcases this with rfl | rfl <;> (unfold ValidUtc; decide +kernel)

end Verif.Rsr
