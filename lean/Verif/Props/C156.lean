import Verif.Props.C155

/-!
# C156 and C158: the columns, the given profile and the names of the forward model

rss_ringoccs/tools/advanced_tools.py.
-/
namespace Verif.Fwd
namespace Spec

/-- One line of the GEO file, as it is used: radius, angle, opening, distance, speed, and the time. -/
def lines (c : Cols) : List (ℚ × ℚ × ℚ × ℚ × ℚ) := c.rho.zip (c.phi.zip (c.b.zip (c.d.zip (c.drho.map (|·|)))))

/-- The radius and the time of a line. -/
def timed (c : Cols) : List (ℚ × ℚ) := c.rho.zip c.tOet

/-- All columns have the same length. -/
def Even (c : Cols) : Prop := c.phi.length = c.rho.length ∧ c.b.length = c.rho.length ∧ c.d.length = c.rho.length ∧ c.drho.length = c.rho.length ∧
  c.phiRl.length = c.rho.length ∧ c.tRet.length = c.rho.length ∧ c.tOet.length = c.rho.length ∧ c.tSet.length = c.rho.length

end Spec
open Spec

theorem zip_reverse {α β : Type} : ∀ {l : List α} {m : List β}, l.length = m.length → l.reverse.zip m.reverse = (l.zip m).reverse
  | [], [], _ => rfl
  | a :: l, b :: m, h => by
    have hl : l.length = m.length := by simpa using h
    rw [List.reverse_cons, List.reverse_cons, List.zip_append (by simpa using hl), zip_reverse hl]
    simp

/-- What the five branches leave. -/
theorem orient_cases {c c' : Cols} (h : orient c = .ok c') :
    (c' = c ∧ ∀ v ∈ c.drho, 0 < v ∨ (v < 0 ∧ ∃ r, c.rho.take 2 = [r, r])) ∨ (c' = { c with drho := c.drho.map (|·|) } ∧ ∀ v ∈ c.drho, v < 0) ∨
      c' = { c with rho := c.rho.reverse, phi := c.phi.reverse, b := c.b.reverse, d := c.d.reverse, drho := (c.drho.reverse).map (|·|) } := by
  unfold orient at h
  split at h
  · rename_i lo hi h1 h2
    obtain ⟨-, hlo⟩ := List.min?_eq_some_iff.mp h1
    obtain ⟨hm, hhi⟩ := List.max?_eq_some_iff.mp h2
    split at h
    · rename_i r0 r1 rest hr
      split at h
      · cases h
      · rename_i n1
        split at h
        · cases h
        · rename_i n2
          push Not at n2
          split at h
          · rename_i n3
            cases h
            exact .inr (.inl ⟨rfl, fun v hv => lt_of_le_of_lt (hhi v hv) n3.2⟩)
          · rename_i n3
            split at h
            · cases h
            · split at h
              · cases h; exact .inr (.inr rfl)
              · rename_i n5
                cases h
                refine .inl ⟨rfl, fun v hv => ?_⟩
                by_cases hpos : 0 < lo
                · exact .inl (lt_of_lt_of_le hpos (hlo v hv))
                · have hneg : lo < 0 := lt_of_le_of_ne (not_lt.mp hpos) n2.1
                  have hh : hi < 0 := lt_of_le_of_ne (not_lt.mp fun hc => n1 ⟨hneg, hc⟩) n2.2
                  have heq : r1 - r0 = 0 := le_antisymm (not_lt.mp fun hc => n3 ⟨hc, hh⟩) (not_lt.mp n5)
                  refine .inr ⟨lt_of_le_of_lt (hhi v hv) hh, r0, ?_⟩
                  rw [hr, (by linarith : r1 = r0)]
                  rfl
    · cases h
  · cases h

/-- **C156.** Radius, angle, opening, distance and speed stay together: the lines are those of the file, or all in the opposite order. -/
theorem C156_lines {c c' : Cols} (he : Even c) (h : orient c = .ok c') : lines c' = lines c ∨ lines c' = (lines c).reverse := by
  obtain ⟨e1, e2, e3, e4, -⟩ := he
  have idem : ∀ l : List ℚ, (l.map (|·|)).map (|·|) = l.map (|·|) := by intro l; simp [Function.comp_def]
  rcases orient_cases h with ⟨rfl, -⟩ | ⟨rfl, -⟩ | rfl
  · exact .inl rfl
  · left
    simp only [lines, idem]
  · right
    simp only [lines, idem, List.map_reverse]
    rw [zip_reverse (by simp [e3, e4]), zip_reverse (by simp [e2, e3, e4]), zip_reverse (by simp [e1, e2, e3, e4]), zip_reverse (by simp [e1, e2, e3, e4])]

/-- **C158.** (Full claim: also the times and the longitude.)  When the radii do not fall, each line keeps its time. -/
theorem C158_times_partial {c c' : Cols} (h : orient c = .ok c') {r0 r1 : ℚ} {rest : List ℚ} (hr : c.rho = r0 :: r1 :: rest) (hle : r0 ≤ r1) :
    timed c' = timed c ∧ c'.tRet = c.tRet ∧ c'.tSet = c.tSet ∧ c'.phiRl = c.phiRl ∧ c'.rho = c.rho := by
  have key : c'.rho = c.rho ∧ c'.tOet = c.tOet ∧ c'.tRet = c.tRet ∧ c'.tSet = c.tSet ∧ c'.phiRl = c.phiRl := by
    unfold orient at h
    simp only [hr, not_lt.mpr (sub_nonneg.mpr hle), false_and, if_false] at h
    split at h
    · split at h
      · cases h
      · split at h
        · cases h
        · split at h
          · cases h; exact ⟨hr.symm, rfl, rfl, rfl, rfl⟩
          · cases h; exact ⟨rfl, rfl, rfl, rfl, rfl⟩
    · cases h
  obtain ⟨k1, k2, k3, k4, k5⟩ := key
  exact ⟨by rw [timed, timed, k1, k2], k3, k4, k5, k1⟩

/-- **C158.** When the radii fall, the radii are turned round and the times and the longitude are not: the first radius gets the last time. -/
theorem C158_times_false {c c' : Cols} (he : Even c) (h : orient c = .ok c') {r0 r1 : ℚ} {rest : List ℚ} (hr : c.rho = r0 :: r1 :: rest) (hlt : r1 < r0) :
    c'.rho = c.rho.reverse ∧ c'.tOet = c.tOet ∧ c'.tRet = c.tRet ∧ c'.tSet = c.tSet ∧ c'.phiRl = c.phiRl ∧
      ∃ t, c.tOet.getLast? = some t ∧ (timed c').getLast? = some (r0, t) := by
  have hneg : r1 - r0 < 0 := sub_neg.mpr hlt
  have key : c' = { c with rho := c.rho.reverse, phi := c.phi.reverse, b := c.b.reverse, d := c.d.reverse, drho := (c.drho.reverse).map (|·|) } := by
    unfold orient at h
    simp only [hr, not_lt.mpr (le_of_lt hneg), false_and, if_false, hneg, true_and, if_true] at h
    split at h
    · split at h
      · cases h
      · split at h
        · cases h
        · split at h
          · cases h
          · cases h; rw [hr]
    · cases h
  have ht : c.tOet.length = c.rho.length := he.2.2.2.2.2.2.1
  subst key
  refine ⟨rfl, rfl, rfl, rfl, rfl, ?_⟩
  cases hl : c.tOet.getLast? with
  | none =>
    rw [List.getLast?_eq_none_iff.mp hl, hr] at ht
    simp at ht
  | some t =>
    refine ⟨t, rfl, ?_⟩
    obtain ⟨ys, hys⟩ := List.getLast?_eq_some_iff.mp hl
    have hlen : (r1 :: rest).reverse.length = ys.length := by
      rw [hr, hys] at ht
      simp only [List.length_append, List.length_cons, List.length_nil, List.length_reverse] at ht ⊢
      omega
    simp only [timed]
    rw [hr, hys, List.reverse_cons, List.zip_append hlen]
    simp

/-- Three lines of an ingress, at 30, 20 and 10 thousand kilometres and the seconds 1, 2 and 3. -/
def ingress : Cols := ⟨[30, 20, 10], [0, 0, 0], [0, 0, 0], [1, 1, 1], [-10, -10, -10], [0, 0, 0], [1, 2, 3], [1, 2, 3], [1, 2, 3]⟩

/-- The radius 10 gets the time 1, in the file it has 3. -/
example : ∃ c', orient ingress = .ok c' ∧ timed c' = [(10, 1), (20, 2), (30, 3)] ∧ (10, 3) ∈ timed ingress ∧ lines c' = (lines ingress).reverse :=
  ⟨⟨[10, 20, 30], [0, 0, 0], [0, 0, 0], [1, 1, 1], [10, 10, 10], [0, 0, 0], [1, 2, 3], [1, 2, 3], [1, 2, 3]⟩, by decide +kernel, by decide +kernel, by decide +kernel, by decide +kernel⟩

/-- **C156.** An event that goes inwards and outwards is refused. -/
theorem C156_chord {c : Cols} {u v : ℚ} (hu : u ∈ c.drho) (hv : v ∈ c.drho) (h1 : u < 0) (h2 : 0 < v) : ∃ e, orient c = .error e := by
  unfold orient
  split
  · rename_i lo hi hl hh
    have hlo := (List.min?_eq_some_iff.mp hl).2 u hu
    have hhi := (List.max?_eq_some_iff.mp hh).2 v hv
    split
    · rw [if_pos ⟨lt_of_le_of_lt hlo h1, lt_of_lt_of_le h2 hhi⟩]; exact ⟨_, rfl⟩
    · exact ⟨_, rfl⟩
  · exact ⟨_, rfl⟩

/-- A chord. -/
example : ∃ e, orient { ingress with drho := [-10, 0, 10] } = .error e := C156_chord (u := -10) (v := 10) (by decide +kernel) (by decide +kernel) (by norm_num) (by norm_num)

/-- **C158.** (Full claim: the samples between the bounds.)  The part of the given profile that is used has the samples from the lower bound up to,
but without, the last one below the upper bound. -/
theorem C158_given_partial {lo hi : ℚ} {rho pow r p : List ℚ} (hr : Rising rho) (h : cutData lo hi rho pow = .ok (r, p)) {x : ℚ} (hx : x ∈ r) :
    lo ≤ x ∧ x ≤ hi ∧ x ∈ rho := by
  unfold cutData at h
  split at h
  · rename_i a b ha hb
    simp only [Except.ok.injEq, Prod.mk.injEq] at h
    obtain ⟨rfl, -⟩ := h
    obtain ⟨j, hj, rfl⟩ := List.getElem_of_mem hx
    simp only [List.length_drop, List.length_take] at hj
    simp only [List.getElem_drop, List.getElem_take]
    have hlt : a + j < rho.length := by omega
    have h1 := minIdx_iff hr (by intro x y hxy hx; simp only [decide_eq_true_eq] at hx ⊢; linarith) ha hlt
    have h2 := maxIdx_iff hr (by intro x y hxy hx; simp only [decide_eq_true_eq] at hx ⊢; linarith) hb hlt
    have e : rho.getD (a + j) 0 = rho[a + j] := by rw [List.getD_eq_getElem?_getD, List.getElem?_eq_getElem hlt]; rfl
    simp only [decide_eq_true_eq, e] at h1 h2
    exact ⟨h1.mp (by omega), h2.mp (by omega), List.getElem_mem _⟩
  · cases h

/-- **C158.** The last sample below the upper bound is never used. -/
theorem C158_given_false {lo hi : ℚ} {rho pow r p : List ℚ} (hr : Rising rho) (h : cutData lo hi rho pow = .ok (r, p)) :
    ∃ x ∈ rho, x ≤ hi ∧ (∀ y ∈ rho, y ≤ hi → y ≤ x) ∧ x ∉ r := by
  unfold cutData at h
  split at h
  · rename_i a b ha hb
    simp only [Except.ok.injEq, Prod.mk.injEq] at h
    obtain ⟨rfl, -⟩ := h
    obtain ⟨hb1, hb2⟩ := maxIdx_lt hb
    have e : ∀ i (hi : i < rho.length), rho.getD i 0 = rho[i] := by intro i hi; rw [List.getD_eq_getElem?_getD, List.getElem?_eq_getElem hi]; rfl
    have hb3 : rho[b] ≤ hi := by rw [← e b hb1]; simpa using hb2
    refine ⟨rho[b], List.getElem_mem _, hb3, ?_, ?_⟩
    · intro y hy hle
      obtain ⟨i, hi', rfl⟩ := List.getElem_of_mem hy
      have h2 := maxIdx_iff hr (by intro x y hxy hx; simp only [decide_eq_true_eq] at hx ⊢; linarith) hb hi'
      rw [e i hi'] at h2
      rw [← e i hi', ← e b hb1]
      exact getD_le hr (h2.mpr (by simpa using hle)) hb1
    · intro hm
      obtain ⟨j, hj, hjx⟩ := List.getElem_of_mem hm
      simp only [List.length_drop, List.length_take] at hj
      simp only [List.getElem_drop, List.getElem_take] at hjx
      have : rho.getD (a + j) 0 < rho.getD b 0 := getD_lt hr (by omega) hb1
      rw [e _ (by omega), e _ hb1, hjx] at this
      exact lt_irrefl _ this
  · cases h

/-- The given radii 9 to 13 for the range from 10 to 12: the sample at 12 is missing. -/
example : cutData 10 12 [9, 10, 11, 12, 13] [1, 2, 3, 4, 5] = .ok ([10, 11], [2, 3]) := by decide +kernel

/-- **C158.** No event is ever known: the pattern of the direction has a per cent sign too many, so that every name of a file gives `Unknown`. -/
theorem C158_info_false (rev : List Char → List Char → Bool) (geo : List Char) : revInfo rev geo = unknown := by
  have bad : ∀ v, pct "\"%s%\"".toList (some v) = none := by
    intro v
    show pct ['"', '%', 's', '%', '"'] (some v) = none
    simp [pct]
  unfold revInfo
  simp only [bad]
  generalize pieces '_' ((pieces '/' geo).getLastD []) = var
  cases h3 : var[3]? with
  | none => rfl
  | some v3 =>
    cases hb : v3.head? with
    | none => simp
    | some b =>
      cases h1 : var[1]? with
      | none => simp
      | some y =>
        cases h2 : var[2]? with
        | none => simp
        | some d =>
          cases h4 : var[4]? <;> simp

/-- The other patterns of the same function work, and the name has all five parts. -/
example : pct "\"%s\"".toList (some ['X']) = some ['"', 'X', '"'] ∧ pct "DSS-%s".toList (some ['4', '3']) = some "DSS-43".toList ∧
    pieces '_' "RSS_2005_123_X43_E_GEO.TAB".toList = ["RSS".toList, "2005".toList, "123".toList, "X43".toList, "E".toList, "GEO.TAB".toList] := by
  decide +kernel

/-- **C158.** A forward model cannot be made at all: the module does not have the name `CSV_tools`.  A comparison fails, too. -/
theorem C158_names_false {α : Type} (checks data : Bool) (rest : Except Fail α) (a : α) :
    modelFromGEO checks rest ≠ .ok a ∧ compareTau checks data rest ≠ .ok a := by
  have h1 : need "CSV_tools" = .error .name := by decide
  have h2 : need "rss" = .error .name := by decide
  constructor
  · unfold modelFromGEO
    rw [h1]
    cases checks <;> (intro h; cases h)
  · unfold compareTau
    rw [h2]
    cases checks <;> cases data <;> (intro h; cases h)

/-- **C158.** The search for a resolution ends only when there is no window to be tried, and then without a result. -/
theorem C158_search {checks data : Bool} {nres nwins : Nat} {step : Except Fail Unit} {k : Nat} (h : findOptimal checks data nres nwins step = .ok k) :
    nwins = 0 ∧ k = 0 := by
  unfold findOptimal at h
  split at h
  · rename_i hc
    split at h
    · obtain ⟨n, rfl⟩ : ∃ n, nres = n + 1 := ⟨nres - 1, by omega⟩
      have hneed : need "rss" = .error .name := by decide
      cases nwins with
      | zero =>
        cases hl : resLoop (n + 1) 0 step with
        | error e => rw [hl] at h; cases h
        | ok u => rw [hl] at h; cases h; exact ⟨rfl, rfl⟩
      | succ w =>
        rw [resLoop, List.range_succ_eq_map, List.foldlM_cons, hneed] at h
        cases h
    · cases h
  · cases h

/-- No windows. -/
example : findOptimal true true 3 0 (.ok ()) = .ok 0 := by decide

end Verif.Fwd
