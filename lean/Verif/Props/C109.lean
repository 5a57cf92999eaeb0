import Verif.Model.DateRev
import Verif.Spec.Activities

/-!
# C109: number and direction of an occultation from its date
-/
namespace Verif.PyHist
open Verif.Rsr

/-- The event at position `k` of the table is the first one among the events of the year whose day is nearest. -/
def Spec.FirstNearest (year doy : Int) (k : Nat) : Prop :=
  ∃ e, Spec.activities[k]? = some e ∧ e.year = year ∧
    (∀ e' ∈ Spec.activities, e'.year = year → |e.doy - doy| ≤ |e'.doy - doy|) ∧
    ∀ j < k, ∀ e', Spec.activities[j]? = some e' → e'.year = year → |e.doy - doy| < |e'.doy - doy|

theorem years_eq : rowYears = Spec.activities.map (·.year) := by decide +kernel
theorem doys_eq : rowDoys = Spec.activities.map (·.doy) := by decide +kernel
theorem names_eq : revNames = Spec.activities.map (·.name) := by decide +kernel

theorem pick_map {α β : Type} (l : List α) (f : α → β) (p : α → Bool) : pick (l.map f) (l.map p) = (l.filter p).map f := by
  induction l with
  | nil => rfl
  | cons a l ih => by_cases h : p a <;> simp [pick, h, ih]

theorem minKey_spec (key : Int → Int) (xs : List Int) (b : Int) :
    ∃ pre post, b :: xs = pre ++ minKey key b xs :: post ∧ (∀ x ∈ pre, key (minKey key b xs) < key x) ∧
      ∀ x ∈ post, key (minKey key b xs) ≤ key x := by
  induction xs generalizing b with
  | nil => exact ⟨[], [], by simp [minKey]⟩
  | cons x xs ih =>
    simp only [minKey]
    obtain ⟨pre, post, h1, h2, h3⟩ := ih (if key x < key b then x else b)
    by_cases hx : key x < key b
    · rw [if_pos hx] at h1 h2 h3 ⊢
      refine ⟨b :: pre, post, by rw [h1]; rfl, ?_, h3⟩
      intro y hy
      rcases List.mem_cons.mp hy with rfl | hy
      · have : minKey key x xs = x ∨ key (minKey key x xs) < key x := by
          cases pre with
          | nil => left; simp only [List.nil_append, List.cons.injEq] at h1; exact h1.1.symm
          | cons p pre =>
            right
            simp only [List.cons_append, List.cons.injEq] at h1
            exact h1.1 ▸ h2 p List.mem_cons_self
        rcases this with h | h
        · rw [h]; exact hx
        · omega
      · exact h2 y hy
    · rw [if_neg hx] at h1 h2 h3 ⊢
      cases pre with
      | nil =>
        simp only [List.nil_append, List.cons.injEq] at h1
        refine ⟨[], x :: xs, by rw [← h1.1]; rfl, by simp, ?_⟩
        intro y hy
        rcases List.mem_cons.mp hy with rfl | hy
        · rw [← h1.1]; omega
        · exact h3 y (h1.2 ▸ hy)
      | cons p pre =>
        simp only [List.cons_append, List.cons.injEq] at h1
        refine ⟨b :: x :: pre, post, congrArg (fun l => b :: x :: l) h1.2, ?_, h3⟩
        have hb := h2 p List.mem_cons_self
        rw [← h1.1] at hb
        intro y hy
        rcases List.mem_cons.mp hy with rfl | hy
        · exact hb
        · rcases List.mem_cons.mp hy with rfl | hy
          · omega
          · exact h2 y (List.mem_cons_of_mem _ hy)

/-- The events of one date are picked by the two masks. -/
theorem pick_date (year d : Int) :
    pick revNames (List.zipWith (fun a b => a && b) (rowYears.map fun y => decide (y = year)) (rowDoys.map fun x => decide (x = d))) =
      (Spec.activities.filter fun e => decide (e.year = year) && decide (e.doy = d)).map (·.name) := by
  rw [years_eq, doys_eq, names_eq, List.map_map, List.map_map, List.zipWith_map, List.zipWith_self]
  exact pick_map _ _ _

theorem no_doy (doy : Int) :
    (rowDoys.map fun d => decide (d = doy)).all (fun b => b = false) = true ↔ ∀ e ∈ Spec.activities, e.doy ≠ doy := by
  rw [doys_eq]; simp

theorem rev_of_split {year d : Int} {A B : List Spec.Event} {e : Spec.Event} (h : Spec.activities = A ++ e :: B) (hy : e.year = year)
    (hd : e.doy = d) (hA : ∀ x ∈ A, x.year = year → x.doy ≠ d) :
    (Spec.activities.filter fun e => decide (e.year = year) && decide (e.doy = d)).map (·.name) =
      e.name :: (B.filter fun e => decide (e.year = year) && decide (e.doy = d)).map (·.name) := by
  rw [h, List.filter_append]
  have : A.filter (fun e => decide (e.year = year) && decide (e.doy = d)) = [] := by
    rw [List.filter_eq_nil_iff]
    intro x hx hc
    simp only [Bool.and_eq_true, decide_eq_true_eq] at hc
    exact hA x hx hc.1 hc.2
  rw [this, List.nil_append, List.filter_cons_of_pos (by simp [hy, hd])]
  rfl

theorem nearest_of_split {year doy : Int} {A B : List Spec.Event} {e : Spec.Event} (h : Spec.activities = A ++ e :: B) (hy : e.year = year)
    (hA : ∀ x ∈ A, x.year = year → |e.doy - doy| < |x.doy - doy|) (hB : ∀ x ∈ B, x.year = year → |e.doy - doy| ≤ |x.doy - doy|) :
    Spec.FirstNearest year doy A.length := by
  refine ⟨e, by rw [h]; simp, hy, ?_, ?_⟩
  · intro x hx hxy
    rw [h] at hx
    rcases List.mem_append.mp hx with hx | hx
    · exact (hA x hx hxy).le
    · rcases List.mem_cons.mp hx with rfl | hx
      · exact le_refl _
      · exact hB x hx hxy
  · intro j hj x hx hxy
    rw [h, List.getElem?_append_left hj] at hx
    exact hA x (List.mem_of_getElem? hx) hxy

/-- For a date of an event, and for a day on which there never was an event (in a year with one), the result is the number in the
name of the first of the nearest events of that year. -/
theorem C109_date_partial (year doy : Int)
    (h : (∃ e ∈ Spec.activities, e.year = year ∧ e.doy = doy) ∨
      (∃ e ∈ Spec.activities, e.year = year) ∧ ∀ e ∈ Spec.activities, e.doy ≠ doy) :
    ∃ k e, Spec.FirstNearest year doy k ∧ Spec.activities[k]? = some e ∧ dateToRev year doy = .ok ((e.name.toList.take 7).drop 4) := by
  rcases h with ⟨e0, he0, hy0, hd0⟩ | ⟨⟨e0, he0, hy0⟩, hno⟩
  · have hn : ¬ (rowDoys.map fun d => decide (d = doy)).all (fun b => b = false) = true := by
      rw [no_doy]; intro hc; exact hc e0 he0 hd0
    have hne : Spec.activities.filter (fun e => decide (e.year = year) && decide (e.doy = doy)) ≠ [] := by
      intro hc
      rw [List.filter_eq_nil_iff] at hc
      exact hc e0 he0 (by simp [hy0, hd0])
    obtain ⟨e, R, hR⟩ := List.exists_cons_of_ne_nil hne
    obtain ⟨A, B, hAB, hA, he, -⟩ := List.filter_eq_cons_iff.mp hR
    simp only [Bool.and_eq_true, decide_eq_true_eq] at he
    have hA' : ∀ x ∈ A, x.year = year → x.doy ≠ doy := fun x hx hxy hxd => hA x hx (by simp [hxy, hxd])
    refine ⟨A.length, e, nearest_of_split hAB he.1 ?_ ?_, by rw [hAB]; simp, ?_⟩
    · intro x hx hxy
      have := hA' x hx hxy
      rw [he.2, sub_self, abs_zero]
      exact abs_pos.mpr (sub_ne_zero.mpr this)
    · intro x _ _
      rw [he.2, sub_self, abs_zero]
      exact abs_nonneg _
    · simp only [dateToRev, doyWhere, hn, if_false, Bool.false_eq_true, bind, Except.bind, pick_date, rev_of_split hAB he.1 he.2 hA']
      rfl
  · have hn : (rowDoys.map fun d => decide (d = doy)).all (fun b => b = false) = true := (no_doy doy).mpr hno
    have hpick : pick rowDoys (rowYears.map fun y => decide (y = year)) =
        (Spec.activities.filter fun e => decide (e.year = year)).map (·.doy) := by
      rw [years_eq, doys_eq, List.map_map]; exact pick_map _ _ _
    cases hF : Spec.activities.filter (fun e => decide (e.year = year)) with
    | nil =>
      rw [List.filter_eq_nil_iff] at hF
      exact absurd (hF e0 he0) (by simp [hy0])
    | cons f F =>
      obtain ⟨pre, post, h1, h2, h3⟩ := minKey_spec (fun x => |x - doy|) (F.map (·.doy)) f.doy
      set m := minKey (fun x => |x - doy|) f.doy (F.map (·.doy)) with hm
      have h1' : (f :: F).map (·.doy) = pre ++ m :: post := h1
      rw [← hF] at h1'
      obtain ⟨F1, F2, hF12, hpre, hpost⟩ := List.map_eq_append_iff.mp h1'
      obtain ⟨e, F3, hF2, hem, hF3⟩ := List.map_eq_cons_iff.mp hpost
      rw [hF2] at hF12
      obtain ⟨A, B', hAB, hA1, hB1⟩ := List.filter_eq_append_iff.mp hF12
      obtain ⟨A2, B, hB', hA2, he, hB2⟩ := List.filter_eq_cons_iff.mp hB1
      simp only [decide_eq_true_eq] at he
      have hsplit : Spec.activities = (A ++ A2) ++ e :: B := by rw [hAB, hB', List.append_assoc]
      have hbefore : ∀ x ∈ A ++ A2, x.year = year → |e.doy - doy| < |x.doy - doy| := by
        intro x hx hxy
        rcases List.mem_append.mp hx with hx | hx
        · have hxF : x ∈ F1 := by rw [← hA1]; exact List.mem_filter.mpr ⟨hx, by simp [hxy]⟩
          have := h2 x.doy (by rw [← hpre]; exact List.mem_map_of_mem hxF)
          rw [hem]; exact this
        · exact absurd (hA2 x hx) (by simp [hxy])
      have hafter : ∀ x ∈ B, x.year = year → |e.doy - doy| ≤ |x.doy - doy| := by
        intro x hx hxy
        have hxF : x ∈ F3 := by rw [← hB2]; exact List.mem_filter.mpr ⟨hx, by simp [hxy]⟩
        have := h3 x.doy (by rw [← hF3]; exact List.mem_map_of_mem hxF)
        rw [hem]; exact this
      refine ⟨(A ++ A2).length, e, nearest_of_split hsplit he hbefore hafter, by rw [hsplit]; simp, ?_⟩
      have hne : ∀ x ∈ A ++ A2, x.year = year → x.doy ≠ m := by
        intro x hx hxy hc
        have := hbefore x hx hxy
        rw [hem, hc] at this
        exact lt_irrefl _ this
      simp only [dateToRev, doyWhere, hn, if_true, hpick, hF, List.map_cons, bind, Except.bind, ← hm, pick_date,
        rev_of_split hsplit he hem hne]
      rfl

/-- When there is no result: the day was one of an event, but only in other years; or neither year nor day is in the table. -/
theorem C109_fails (year doy : Int) :
    (dateToRev year doy = .error .index ↔
      (∃ e ∈ Spec.activities, e.doy = doy) ∧ ∀ e ∈ Spec.activities, ¬ (e.year = year ∧ e.doy = doy)) ∧
    (dateToRev year doy = .error .value ↔ ∀ e ∈ Spec.activities, e.doy ≠ doy ∧ e.year ≠ year) := by
  by_cases hday : ∃ e ∈ Spec.activities, e.doy = doy
  · by_cases hdate : ∃ e ∈ Spec.activities, e.year = year ∧ e.doy = doy
    · obtain ⟨k, e, -, -, hr⟩ := C109_date_partial year doy (.inl hdate)
      obtain ⟨x, hx, hxy, hxd⟩ := hdate
      rw [hr]
      refine ⟨⟨fun h => by (cases h), fun h => absurd ⟨hxy, hxd⟩ (h.2 x hx)⟩, ⟨fun h => by (cases h), fun h => absurd hxd (h x hx).1⟩⟩
    · have hn : ¬ (rowDoys.map fun d => decide (d = doy)).all (fun b => b = false) = true := by
        rw [no_doy]; obtain ⟨x, hx, hxd⟩ := hday; exact fun hc => hc x hx hxd
      have hnil : Spec.activities.filter (fun e => decide (e.year = year) && decide (e.doy = doy)) = [] := by
        rw [List.filter_eq_nil_iff]
        intro x hx hc
        simp only [Bool.and_eq_true, decide_eq_true_eq] at hc
        exact hdate ⟨x, hx, hc⟩
      have hr : dateToRev year doy = .error .index := by
        simp only [dateToRev, doyWhere, hn, if_false, Bool.false_eq_true, bind, Except.bind, pick_date, hnil, List.map_nil]
      rw [hr]
      obtain ⟨x, hx, hxd⟩ := hday
      refine ⟨⟨fun _ => ⟨⟨x, hx, hxd⟩, fun e he hc => hdate ⟨e, he, hc⟩⟩, fun _ => rfl⟩,
        ⟨fun h => by (cases h), fun h => absurd hxd (h x hx).1⟩⟩
  · have hno : ∀ e ∈ Spec.activities, e.doy ≠ doy := fun e he hc => hday ⟨e, he, hc⟩
    by_cases hyear : ∃ e ∈ Spec.activities, e.year = year
    · obtain ⟨k, e, -, -, hr⟩ := C109_date_partial year doy (.inr ⟨hyear, hno⟩)
      obtain ⟨x, hx, hxy⟩ := hyear
      rw [hr]
      refine ⟨⟨fun h => by (cases h), fun h => absurd h.1 hday⟩, ⟨fun h => by (cases h), fun h => absurd hxy (h x hx).2⟩⟩
    · have hn := (no_doy doy).mpr hno
      have hpick : pick rowDoys (rowYears.map fun y => decide (y = year)) = [] := by
        rw [years_eq, doys_eq, List.map_map]
        refine (pick_map _ _ _).trans ?_
        rw [List.filter_eq_nil_iff.mpr]
        · rfl
        · intro x hx hc
          exact hyear ⟨x, hx, by simpa using hc⟩
      have hr : dateToRev year doy = .error .value := by
        simp only [dateToRev, doyWhere, hn, if_true, hpick, bind, Except.bind]
      rw [hr]
      refine ⟨⟨fun h => by (cases h), fun h => absurd h.1 hday⟩, ⟨fun _ e he => ⟨hno e he, fun hc => hyear ⟨e, he, hc⟩⟩, fun _ => rfl⟩⟩

/-- A number that is found for a date has an entry in the table of directions, and `rev_to_occ_info` returns that entry, unless
it is not a number but `PER`. -/
theorem C109_direction_partial (year doy : Int) (rev : List Char) (h : dateToRev year doy = .ok rev) (hp : rev ≠ ['P', 'E', 'R']) :
    ∃ d ∈ Spec.directions, d.1.toList = rev ∧ revToOcc rev = d.2 := by
  have hmem : ∃ e ∈ Spec.activities, rev = (e.name.toList.take 7).drop 4 := by
    by_cases h1 : ∃ e ∈ Spec.activities, e.year = year ∧ e.doy = doy
    · obtain ⟨k, e, -, hk, hr⟩ := C109_date_partial year doy (.inl h1)
      rw [hr] at h; cases h
      exact ⟨e, List.mem_of_getElem? hk, rfl⟩
    · by_cases h2 : ∃ e ∈ Spec.activities, e.doy = doy
      · rw [((C109_fails year doy).1).mpr ⟨h2, fun e he hc => h1 ⟨e, he, hc⟩⟩] at h; cases h
      · have hno : ∀ e ∈ Spec.activities, e.doy ≠ doy := fun e he hc => h2 ⟨e, he, hc⟩
        by_cases h3 : ∃ e ∈ Spec.activities, e.year = year
        · obtain ⟨k, e, -, hk, hr⟩ := C109_date_partial year doy (.inr ⟨h3, hno⟩)
          rw [hr] at h; cases h
          exact ⟨e, List.mem_of_getElem? hk, rfl⟩
        · rw [((C109_fails year doy).2).mpr fun e he => ⟨hno e he, fun hc => h3 ⟨e, he, hc⟩⟩] at h; cases h
  obtain ⟨e, he, rfl⟩ := hmem
  have key : ∀ e ∈ Spec.activities, (e.name.toList.take 7).drop 4 ≠ ['P', 'E', 'R'] →
      ∃ d ∈ Spec.directions, d.1.toList = (e.name.toList.take 7).drop 4 ∧ revToOcc ((e.name.toList.take 7).drop 4) = d.2 := by
    decide +kernel
  exact key e he hp

/-- `rev_to_occ_info` agrees with the table of directions; other texts give `BOTH`. -/
theorem C109_direction_table :
    (∀ d ∈ Spec.directions, revToOcc d.1.toList = d.2) ∧
      ∀ rev, (∀ d ∈ Spec.directions, d.1.toList ≠ rev) → revToOcc rev = "BOTH" := by
  constructor
  · decide +kernel
  · intro rev h
    have hr : revStrs = Spec.directions.map (·.1) := by decide +kernel
    have : revStrs.findIdx? (fun r => r.toList = rev) = none := by
      rw [List.findIdx?_eq_none_iff, hr]
      intro r hr'
      obtain ⟨d, hd, rfl⟩ := List.mem_map.mp hr'
      simp [h d hd]
    rw [revToOcc, this]

/-- It is false that every date in a year with events has a result: the day 130 of 2005 is looked up among all years, and found in
other ones only. -/
theorem C109_date_false :
    ¬ ∀ year doy : Int, (∃ e ∈ Spec.activities, e.year = year) → 1 ≤ doy → doy ≤ 365 → ∃ rev, dateToRev year doy = .ok rev := by
  intro h
  obtain ⟨rev, hr⟩ := h 2005 130 (by decide +kernel) (by decide) (by decide)
  have : dateToRev 2005 130 = .error .index := by
    apply ((C109_fails 2005 130).1).mpr
    decide +kernel
  rw [this] at hr; cases hr

/-- It is false that the result for the date of an event consists of digits: for the day 135 of 2017, of the occultation of the
revolution 274, it is `PER`, which has no entry in the table of directions. -/
theorem C109_number_false :
    dateToRev 2017 135 = .ok ['P', 'E', 'R'] ∧ (∀ d ∈ Spec.directions, d.1.toList ≠ ['P', 'E', 'R']) ∧
      ∃ e ∈ Spec.activities, e.year = 2017 ∧ e.doy = 135 ∧ (e.name.toList.take 7).drop 4 = "274".toList := by
  decide +kernel

example : dateToRev 2005 123 = .ok "007".toList := by decide +kernel
example : dateToRev 2008 1 = .ok "056".toList ∧ revToOcc "056".toList = "BOTH" := by decide +kernel
example : dateToRev 2006 1000 = .ok "028".toList ∧ revToOcc "028".toList = "INGRESS" := by decide +kernel
example : (∃ e ∈ Spec.activities, e.year = 2008) ∧ ∀ e ∈ Spec.activities, e.doy ≠ 1 := by decide +kernel
example : dateToRev 2011 1 = .error .value := by decide +kernel
/-- The days 15 and 27 of 2008 are equally near to 21: the first one is taken. -/
example : dateToRev 2008 21 = .ok "056".toList := by decide +kernel

end Verif.PyHist
