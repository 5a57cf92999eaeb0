import Verif.Model.Csv
import Verif.Spec.Csv
import Mathlib.Tactic.Ring
import Mathlib.Data.List.Basic
import Mathlib.Data.List.TakeWhile

/-!
# Lemmas about the CSV readers
-/
namespace Verif
open Spec

/-! ### strtok -/

theorem split_ne_nil (s : List Char) : split s ≠ [] := by
  cases s with
  | nil => simp [split]
  | cons c s =>
    rw [split]
    split
    · simp
    · split <;> simp

theorem split_comma (s : List Char) : split (',' :: s) = [] :: split s := by simp [split]

theorem split_append {f : List Char} (hf : ∀ c ∈ f, c ≠ ',') (s : List Char) :
    split (f ++ ',' :: s) = f :: split s := by
  induction f with
  | nil => simp [split]
  | cons c f ih =>
    rw [List.cons_append, split, if_neg (hf c (by simp)), ih (fun d hd => hf d (by simp [hd]))]

theorem split_self {f : List Char} (hf : ∀ c ∈ f, c ≠ ',') : split f = [f] := by
  induction f with
  | nil => rfl
  | cons c f ih => rw [split, if_neg (hf c (by simp)), ih (fun d hd => hf d (by simp [hd]))]

/-- Tokens of a string (no NUL treatment). -/
def toks (s : List Char) : List (List Char) := (split s).filter (· ≠ [])

theorem toks_comma (s : List Char) : toks (',' :: s) = toks s := by
  rw [toks, split_comma, toks]; rfl

theorem toks_dropComma (s : List Char) : toks (s.dropWhile (· = ',')) = toks s := by
  induction s with
  | nil => rfl
  | cons c s ih =>
    rw [List.dropWhile_cons]
    by_cases h : c = ','
    · subst h; simp only [decide_true, if_true]; rw [ih, toks_comma]
    · simp [h]

theorem strtok_toks (s : List Char) :
    match strtok s with
    | none => toks s = []
    | some (tok, rest) => toks s = tok :: toks rest := by
  unfold strtok
  simp only []
  rw [← toks_dropComma s]
  by_cases h : s.dropWhile (· = ',') = []
  · rw [if_pos h, h]; rfl
  rw [if_neg h]
  simp only []
  obtain ⟨c, r, e⟩ := List.exists_cons_of_ne_nil h
  have hc : c ≠ ',' := by
    have := List.head_dropWhile_not (fun x : Char => decide (x = ',')) (l := s) h
    simp only [e, List.head_cons] at this
    simpa using this
  rw [e]
  set f := (c :: r).takeWhile (· ≠ ',') with hf
  have hne : f ≠ [] := by
    rw [hf, List.takeWhile_cons]; simp [hc]
  have hnc : ∀ x ∈ f, x ≠ ',' := fun x hx => by
    have := List.all_takeWhile (p := fun x : Char => decide (x ≠ ',')) (l := c :: r)
    rw [List.all_eq_true] at this
    simpa using this x hx
  have hs : c :: r = f ++ (c :: r).dropWhile (· ≠ ',') := (List.takeWhile_append_dropWhile).symm
  rcases hd : (c :: r).dropWhile (· ≠ ',') with _ | ⟨d, r'⟩
  · rw [hd, List.append_nil] at hs
    rw [hs, toks, split_self hnc]
    simp [hne, toks, split]
  · have hdc : d = ',' := by
      have := List.head_dropWhile_not (fun x : Char => decide (x ≠ ',')) (l := c :: r) (by rw [hd]; simp)
      simp only [hd, List.head_cons] at this
      simpa using this
    subst hdc
    rw [hd] at hs
    rw [hs, toks, split_append hnc]
    simp [hne, toks]

theorem tokens_eq (s : List Char) : tokens s = toks (cstr s) := rfl

/-! ### Storing -/

theorem set_ok {o : Csv} {c : Col} {l : List Dbl} {n : Nat} (h : o.arr c = some l) (hn : n < l.length)
    (v : Dbl) : o.set c n v = .ok { o with arr := fun c' => if c' = c then some (l.set n v) else o.arr c' } := by
  simp only [Csv.set, h, wr_lt hn, Res.ok_bind]

/-- All columns of `cols` are arrays of `N` entries. -/
def Sized (o : Csv) (cols : List Col) (N : Nat) : Prop :=
  ∀ c ∈ cols, ∃ l, o.arr c = some l ∧ l.length = N

/-- Same object except for the arrays. -/
structure SameButArr (o o' : Csv) : Prop where
  n : o'.n = o.n
  err : o'.err = o.err
  dep : o'.dep = o.dep
  radians : o'.radians = o.radians

theorem SameButArr.refl (o : Csv) : SameButArr o o := ⟨rfl, rfl, rfl, rfl⟩

theorem SameButArr.trans {a b c : Csv} (h : SameButArr a b) (h' : SameButArr b c) : SameButArr a c :=
  ⟨h'.n.trans h.n, h'.err.trans h.err, h'.dep.trans h.dep, h'.radians.trans h.radians⟩

/-- `o'` is `o` with the tokens `ts` stored in row `n` of the columns `cols`. -/
structure RowStored (V : CsvLib) (cols : List Col) (ts : List (List Char)) (n : Nat) (o o' : Csv) :
    Prop where
  same : SameButArr o o'
  vals : ∀ (j : Nat) (c : Col), cols[j]? = some c → ∃ (l : List Dbl) (t : List Char), o.arr c = some l ∧ ts[j]? = some t ∧
    o'.arr c = some (l.set n (V.atof t))
  rest : ∀ c, c ∉ cols → o'.arr c = o.arr c

theorem readFields_iff (V : CsvLib) {N n : Nat} (hn : n < N) : ∀ (cols : List Col) (s : List Char)
    (o : Csv), cols.Nodup → Sized o cols N →
    (cols.length ≤ (toks s).length → ∃ o', readFields V cols s n o = .ok o' ∧
      RowStored V cols (toks s) n o o') ∧
    ((toks s).length < cols.length → readFields V cols s n o = .ub .nullDeref) := by
  intro cols
  induction cols with
  | nil =>
    intro s o _ _
    exact ⟨fun _ => ⟨o, rfl, SameButArr.refl o, by simp, fun _ _ => rfl⟩, fun h => by simp at h⟩
  | cons c cs ih =>
    intro s o hnd hS
    have hst := strtok_toks s
    rw [readFields]
    rcases hstr : strtok s with _ | ⟨tok, rest⟩
    · rw [hstr] at hst
      simp only [] at hst ⊢
      exact ⟨fun h => by simp [hst] at h, fun _ => trivial⟩
    · rw [hstr] at hst
      simp only [] at hst ⊢
      obtain ⟨l, e, hl⟩ := hS c (by simp)
      rw [set_ok e (by omega), Res.ok_bind]
      set o1 : Csv := { o with arr := fun c' => if c' = c then some (l.set n (V.atof tok)) else o.arr c' }
        with ho1
      have hnd' := List.nodup_cons.1 hnd
      have hS1 : Sized o1 cs N := fun c' hc' => by
        obtain ⟨l', e', hl'⟩ := hS c' (by simp [hc'])
        refine ⟨l', ?_, hl'⟩
        have : c' ≠ c := fun h => hnd'.1 (h ▸ hc')
        simp [ho1, this, e']
      obtain ⟨i1, i2⟩ := ih rest o1 hnd'.2 hS1
      rw [hst]
      refine ⟨fun h => ?_, fun h => i2 (by simpa using h)⟩
      obtain ⟨o', e', hr⟩ := i1 (by simpa using h)
      refine ⟨o', e', (⟨rfl, rfl, rfl, rfl⟩ : SameButArr o o1).trans hr.same, ?_, ?_⟩
      · intro j c' hj
        cases j with
        | zero =>
          simp only [List.getElem?_cons_zero, Option.some.injEq] at hj
          subst hj
          refine ⟨l, tok, e, rfl, ?_⟩
          rw [hr.rest _ hnd'.1]
          simp [ho1]
        | succ j =>
          rw [List.getElem?_cons_succ] at hj
          obtain ⟨l', t, a, b, d⟩ := hr.vals j c' hj
          have : c' ≠ c := fun h => hnd'.1 (h ▸ List.mem_of_getElem? hj)
          refine ⟨l', t, ?_, by rw [List.getElem?_cons_succ]; exact b, d⟩
          simpa [ho1, this] using a
      · intro c' hc'
        rw [List.mem_cons, not_or] at hc'
        rw [hr.rest c' hc'.2]
        simp [ho1, hc'.1]

/-- `o'` is `o` with the tokens of the lines `ls` stored in rows `n, n+1, …`. -/
structure RowsStored (V : CsvLib) (cols : List Col) (ls : List (List Char)) (n : Nat) (o o' : Csv) :
    Prop where
  same : SameButArr o o'
  vals : ∀ (j : Nat) (c : Col), cols[j]? = some c → ∃ l l' : List Dbl, o.arr c = some l ∧ o'.arr c = some l' ∧
    l'.length = l.length ∧ (∀ i : Nat, i < n ∨ n + ls.length ≤ i → l'[i]? = l[i]?) ∧
    ∀ (i : Nat) (s : List Char), ls[i]? = some s → ∃ t, (tokens s)[j]? = some t ∧ l'[n + i]? = some (V.atof t)
  rest : ∀ c, c ∉ cols → o'.arr c = o.arr c

theorem readRows_ok (V : CsvLib) {N : Nat} {cols : List Col} (hnd : cols.Nodup) :
    ∀ (ls : List (List Char)) (n : Nat) (o : Csv), Sized o cols N → n + ls.length ≤ N →
    (∀ s ∈ ls, cols.length ≤ (tokens s).length) →
    ∃ o', readRows V cols ls n o = .ok o' ∧ RowsStored V cols ls n o o' := by
  intro ls
  induction ls with
  | nil =>
    intro n o hS _ _
    refine ⟨o, rfl, SameButArr.refl o, fun j c hj => ?_, fun _ _ => rfl⟩
    obtain ⟨l, e, -⟩ := hS c (List.mem_of_getElem? hj)
    exact ⟨l, l, e, e, rfl, fun _ _ => rfl, fun i s h => by simp at h⟩
  | cons s ls ih =>
    intro n o hS hN ht
    rw [List.length_cons] at hN
    obtain ⟨o1, e1, h1⟩ := (readFields_iff V (N := N) (n := n) (by omega) cols (cstr s) o hnd hS).1
      (by rw [← tokens_eq]; exact ht s (by simp))
    rw [← tokens_eq] at h1
    have hS1 : Sized o1 cols N := fun c hc => by
      obtain ⟨j, hj⟩ := List.getElem?_of_mem hc
      obtain ⟨l, t, a, -, d⟩ := h1.vals j c hj
      obtain ⟨l', e', hl'⟩ := hS c hc
      rw [a] at e'; cases e'
      exact ⟨_, d, by simpa using hl'⟩
    obtain ⟨o2, e2, h2⟩ := ih (n + 1) o1 hS1 (by omega) (fun x hx => ht x (by simp [hx]))
    refine ⟨o2, by rw [readRows, e1, Res.ok_bind, e2], h1.same.trans h2.same, ?_, ?_⟩
    · intro j c hj
      obtain ⟨l, t, a, b, d⟩ := h1.vals j c hj
      obtain ⟨l1, l2, a2, b2, c2, d2, f2⟩ := h2.vals j c hj
      rw [d] at a2; cases a2
      obtain ⟨l', e', hl'⟩ := hS c (List.mem_of_getElem? hj)
      rw [a] at e'; cases e'
      rw [List.length_set] at c2
      refine ⟨l, l2, a, b2, c2, fun i hi => ?_, fun i x hi => ?_⟩
      · rw [List.length_cons] at hi
        rw [d2 i (by omega), List.getElem?_set_ne (by omega)]
      · cases i with
        | zero =>
          simp only [List.getElem?_cons_zero, Option.some.injEq] at hi
          subst hi
          refine ⟨t, b, ?_⟩
          rw [Nat.add_zero, d2 n (by omega), List.getElem?_set_self (by omega)]
        | succ i =>
          rw [List.getElem?_cons_succ] at hi
          obtain ⟨t', x1, x2⟩ := f2 i x hi
          exact ⟨t', x1, by rw [← x2]; congr 1; omega⟩
    · intro c hc
      rw [h2.rest c hc, h1.rest c hc]

/-- Undefined behaviour when a line is too short or the arrays are. -/
theorem readRows_bad (V : CsvLib) {N : Nat} {cols : List Col} (hnd : cols.Nodup) (hc : cols ≠ []) :
    ∀ (ls : List (List Char)) (n : Nat) (o : Csv), Sized o cols N → n ≤ N →
    ((∃ s ∈ ls, (tokens s).length < cols.length) ∨ N < n + ls.length) →
    ¬ (readRows V cols ls n o).Safe := by
  intro ls
  induction ls with
  | nil =>
    intro n o _ hn h
    rcases h with ⟨s, hs, -⟩ | h
    · simp at hs
    · simp at h; omega
  | cons s ls ih =>
    intro n o hS hn h
    rw [readRows]
    by_cases hnN : n < N
    · obtain ⟨k1, k2⟩ := readFields_iff V hnN cols (cstr s) o hnd hS
      rw [← tokens_eq] at k1 k2
      by_cases hs : (tokens s).length < cols.length
      · rw [k2 hs]; exact Res.not_safe_ub _
      · obtain ⟨o1, e1, h1⟩ := k1 (by omega)
        rw [e1, Res.ok_bind]
        refine ih (n + 1) o1 ?_ (by omega) ?_
        · intro c hc
          obtain ⟨j, hj⟩ := List.getElem?_of_mem hc
          obtain ⟨l, t, a, -, d⟩ := h1.vals j c hj
          obtain ⟨l', e', hl'⟩ := hS c hc
          rw [a] at e'; cases e'
          exact ⟨_, d, by simpa using hl'⟩
        · rcases h with ⟨x, hx, hx'⟩ | h
          · rw [List.mem_cons] at hx
            rcases hx with rfl | hx
            · exact absurd hx' hs
            · exact .inl ⟨x, hx, hx'⟩
          · rw [List.length_cons] at h
            exact .inr (by omega)
    · obtain ⟨c, cs, rfl⟩ := List.exists_cons_of_ne_nil hc
      rw [readFields]
      rcases strtok (cstr s) with _ | ⟨tok, rest⟩
      · exact Res.not_safe_ub _
      · simp only []
        obtain ⟨l, e, hl⟩ := hS c (by simp)
        have : wr l n (V.atof tok) = .ub .oobWrite := by rw [wr, if_neg (by omega)]
        rw [Csv.set, e]
        simp only [this, Res.ub_bind]
        exact Res.not_safe_ub _

/-! ### fgets -/

theorem fgets_line {l : List Char} (hl : ∀ c ∈ l, c ≠ '\n') (rest : List Char) :
    ∀ room, l.length < room → fgets room (l ++ '\n' :: rest) = (l ++ ['\n'], rest) := by
  induction l with
  | nil =>
    intro room hr
    obtain ⟨r, rfl⟩ : ∃ r, room = r + 1 := ⟨room - 1, by simp at hr; omega⟩
    simp [fgets]
  | cons c l ih =>
    intro room hr
    obtain ⟨r, rfl⟩ : ∃ r, room = r + 1 := ⟨room - 1, by simp at hr; omega⟩
    rw [List.cons_append, fgets, if_neg (hl c (by simp)),
      ih (fun d hd => hl d (by simp [hd])) r (by simpa using hr)]
    rfl

theorem fgetsAll_lines : ∀ (ls : List (List Char)) (fuel : Nat),
    (∀ l ∈ ls, (∀ c ∈ l, c ≠ '\n') ∧ l.length < 1023) → ls.length ≤ fuel →
    fgetsAll fuel (ls.flatMap (· ++ ['\n'])) = ls.map (· ++ ['\n']) := by
  intro ls
  induction ls with
  | nil => intro fuel _ _; cases fuel <;> rfl
  | cons l ls ih =>
    intro fuel h hf
    rw [List.length_cons] at hf
    obtain ⟨f, rfl⟩ : ∃ f, fuel = f + 1 := ⟨fuel - 1, by omega⟩
    have e : (l :: ls).flatMap (· ++ ['\n']) = l ++ '\n' :: ls.flatMap (· ++ ['\n']) := by simp
    have hg := fgets_line (h l (by simp)).1 (ls.flatMap (· ++ ['\n'])) 1023 (h l (by simp)).2
    rw [e]
    rw [show fgetsAll (f + 1) (l ++ '\n' :: ls.flatMap (· ++ ['\n'])) =
        (fgets 1023 (l ++ '\n' :: ls.flatMap (· ++ ['\n']))).1 ::
          fgetsAll f (fgets 1023 (l ++ '\n' :: ls.flatMap (· ++ ['\n']))).2 from by
      cases l <;> rfl]
    rw [hg, List.map_cons]
    simp only []
    rw [ih f (fun x hx => h x (by simp [hx])) (by omega)]

theorem lines_eq {ls : List (List Char)} (h : ∀ l ∈ ls, (∀ c ∈ l, c ≠ '\n') ∧ l.length < 1023) :
    lines (ls.flatMap (· ++ ['\n'])) = ls.map (· ++ ['\n']) := by
  refine fgetsAll_lines ls _ h ?_
  clear h
  induction ls with
  | nil => simp
  | cons l ls ih =>
    rw [List.flatMap_cons, List.length_append, List.length_append, List.length_cons, List.length_singleton]
    omega

/-! ### Lines of a table -/

theorem joinComma_clean {P : Char → Prop} (hP : P ',') : ∀ {row : List (List Char)},
    (∀ s ∈ row, ∀ c ∈ s, P c) → ∀ c ∈ joinComma row, P c := by
  intro row
  induction row with
  | nil => intro _ c hc; simp [joinComma] at hc
  | cons s rest ih =>
    intro h c hc
    cases rest with
    | nil => exact h s (by simp) c hc
    | cons r rest =>
      rw [joinComma, List.mem_append, List.mem_cons] at hc
      · rcases hc with hc | rfl | hc
        · exact h s (by simp) c hc
        · exact hP
        · exact ih (fun x hx => h x (by simp [hx])) c hc
      · simp

theorem toks_joinComma (tail : List Char) (htail : ∀ c ∈ tail, c ≠ ',') : ∀ {row : List (List Char)},
    (∀ s ∈ row, IsField s) → row ≠ [] →
    toks (joinComma row ++ tail) = row.dropLast ++ [row.getLastD [] ++ tail] := by
  intro row
  induction row with
  | nil => intro _ h; exact absurd rfl h
  | cons s rest ih =>
    intro h _
    have hs := h s (by simp)
    cases rest with
    | nil =>
      rw [joinComma, toks, split_self (fun c hc => by
        rw [List.mem_append] at hc
        rcases hc with hc | hc
        · exact (hs.2 c hc).1
        · exact htail c hc)]
      simp [hs.1]
    | cons r rest =>
      rw [joinComma, List.append_assoc, List.cons_append, toks, split_append (fun c hc => (hs.2 c hc).1)]
      · have := ih (fun x hx => h x (by simp [hx])) (by simp)
        rw [List.filter_cons_of_pos (by simpa using hs.1), ← toks, this]
        simp
      · simp

theorem cstr_clean {s : List Char} (h : ∀ c ∈ s, c ≠ '\x00') : cstr s = s := by
  rw [cstr, List.takeWhile_eq_self_iff]
  simpa using h

/-- The tokens of a line are the fields; the last one has the line end attached. -/
theorem tokens_lineOf {row : List (List Char)} (h : ∀ s ∈ row, IsField s) (hne : row ≠ []) :
    tokens (lineOf row) = row.dropLast ++ [row.getLastD [] ++ ['\n']] := by
  rw [tokens_eq, cstr_clean, lineOf, toks_joinComma _ (by simp) h hne]
  intro c hc
  rw [lineOf, List.mem_append, List.mem_singleton] at hc
  rcases hc with hc | rfl
  · exact joinComma_clean (P := fun c => c ≠ '\x00') (by decide) (fun s hs c hc => ((h s hs).2 c hc).2.2) c hc
  · decide

theorem lines_fileOf {cols : Nat} {rows : List (List (List Char))} (h : IsTable cols rows) :
    lines (fileOf rows) = rows.map lineOf := by
  have e : fileOf rows = (rows.map joinComma).flatMap (· ++ ['\n']) := by
    rw [fileOf, List.flatMap_map]; rfl
  rw [e, lines_eq]
  · simp [lineOf]
  · intro l hl
    obtain ⟨row, hr, rfl⟩ := List.mem_map.1 hl
    refine ⟨joinComma_clean (P := fun c => c ≠ '\n') (by decide)
      (fun s hs c hc => ((h.fields row hr s hs).2 c hc).2.1), ?_⟩
    have := h.short row hr
    rw [lineOf, List.length_append, List.length_singleton] at this
    omega

/-! ### Allocation -/

theorem allocCols_ok (V : CsvLib) : ∀ (cs : List Col) (o : Csv), (∀ c ∈ cs, V.mem c = true) →
    SameButArr o (allocCols V cs o) ∧
    (∀ c ∈ cs, (allocCols V cs o).arr c = some ((List.range o.n).map (V.junk c))) ∧
    (∀ c, c ∉ cs → (allocCols V cs o).arr c = o.arr c) := by
  intro cs
  induction cs with
  | nil => intro o _; exact ⟨SameButArr.refl o, by simp, fun _ _ => rfl⟩
  | cons c cs ih =>
    intro o h
    rw [allocCols, if_pos (h c (by simp))]
    obtain ⟨h1, h2, h3⟩ := ih
      { o with
        arr := fun c' => if c' = c then some ((List.range o.n).map (V.junk c)) else o.arr c' }
      (fun x hx => h x (by simp [hx]))
    refine ⟨⟨h1.n, h1.err, h1.dep, h1.radians⟩, fun x hx => ?_, fun x hx => ?_⟩
    · by_cases hm : x ∈ cs
      · exact h2 x hm
      · rw [h3 x hm]
        have : x = c := by simpa [hm] using hx
        simp [this]
    · rw [List.mem_cons, not_or] at hx
      rw [h3 x hx.2]
      simp [hx.1]

theorem readOrder_nodup (k : Kind) (dep : Bool) : (readOrder k dep).Nodup := by
  cases k <;> cases dep <;> decide

theorem readOrder_sub (k : Kind) (dep : Bool) : ∀ c ∈ readOrder k dep, c ∈ allocOrder k dep := by
  cases k <;> cases dep <;> decide

theorem readOrder_ne_nil (k : Kind) (dep : Bool) : readOrder k dep ≠ [] := by
  cases k <;> cases dep <;> decide

end Verif
