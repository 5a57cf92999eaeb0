import Verif.Model.CsvData
import Verif.Spec.CsvData
import Verif.Proofs.Csv
import Verif.Proofs.Loop

/-!
# Lemmas about the combination of CSV files
-/
namespace Verif
open Spec Data

/-! ### Slopes -/

/-- One pass of the loop over the slopes. -/
def slopeStep (s : Dbl × Dbl) (d : Dbl) : Dbl × Dbl :=
  (if d.lt s.1 then d else s.1, if s.2.lt d then d else s.2)

theorem slopeLoop_aux (L : DataLib) : ∀ (cnt lo : Nat) (rho t : List Dbl) (s : Dbl × Dbl),
    rho.length = lo + cnt + 1 → t.length = lo + cnt + 1 →
    forRange lo cnt (fun i s => do
      let r1 ← rdP (some rho) (i + 1)
      let r0 ← rdP (some rho) i
      let t1 ← rdP (some t) (i + 1)
      let t0 ← rdP (some t) i
      let d := L.div (L.sub r1 r0) (L.sub t1 t0)
      .ok (if d.lt s.1 then d else s.1, if s.2.lt d then d else s.2)) s =
    .ok ((quotients L.div L.sub (rho.drop lo) (t.drop lo)).foldl slopeStep s) := by
  intro cnt
  induction cnt with
  | zero =>
    intro lo rho t s hr ht
    have e1 : (rho.drop lo).length = 1 := by rw [List.length_drop]; omega
    obtain ⟨a, ha⟩ := List.length_eq_one_iff.1 e1
    rw [ha]
    rfl
  | succ cnt ih =>
    intro lo rho t s hr ht
    rw [forRange]
    simp only [rdP_some]
    rw [rd_lt (by omega : lo + 1 < rho.length), Res.ok_bind, rd_lt (by omega : lo < rho.length), Res.ok_bind,
      rd_lt (by omega : lo + 1 < t.length), Res.ok_bind, rd_lt (by omega : lo < t.length), Res.ok_bind, Res.ok_bind]
    have := ih (lo + 1) rho t (slopeStep s (L.div (L.sub rho[lo + 1] rho[lo]) (L.sub t[lo + 1] t[lo])))
      (by omega) (by omega)
    simp only [rdP_some] at this
    rw [show (if (L.div (L.sub rho[lo + 1] rho[lo]) (L.sub t[lo + 1] t[lo])).lt s.1 = true then
        L.div (L.sub rho[lo + 1] rho[lo]) (L.sub t[lo + 1] t[lo]) else s.1,
        if s.2.lt (L.div (L.sub rho[lo + 1] rho[lo]) (L.sub t[lo + 1] t[lo])) = true then
        L.div (L.sub rho[lo + 1] rho[lo]) (L.sub t[lo + 1] t[lo]) else s.2) =
      slopeStep s (L.div (L.sub rho[lo + 1] rho[lo]) (L.sub t[lo + 1] t[lo])) from rfl, this]
    rw [List.drop_eq_getElem_cons (by omega : lo < rho.length), List.drop_eq_getElem_cons (by omega : lo < t.length),
      List.drop_eq_getElem_cons (by omega : lo + 1 < rho.length),
      List.drop_eq_getElem_cons (by omega : lo + 1 < t.length), quotients, List.foldl_cons]

theorem slopeLoop_ok (L : DataLib) {rho t : List Dbl} {n : Nat} (hn : n ≠ 0) (hr : rho.length = n)
    (ht : t.length = n) :
    slopeLoop L (some rho) (some t) n =
      .ok ((quotients L.div L.sub rho t).foldl slopeStep (.fin (10^36), .fin (-10^36))) := by
  unfold slopeLoop
  rw [if_neg hn]
  exact slopeLoop_aux L (n - 1) 0 rho t _ (by omega) (by omega)

/-- What the minimum and the maximum say about the signs. -/
theorem slope_fold : ∀ (q : List Dbl) (s : Dbl × Dbl), s.1.isNaN = false → s.2.isNaN = false →
    (q.foldl slopeStep s).1.isNaN = false ∧ (q.foldl slopeStep s).2.isNaN = false ∧
    ((q.foldl slopeStep s).1.lt (.fin 0) = true ↔ s.1.lt (.fin 0) = true ∨ ∃ d ∈ q, d.lt (.fin 0) = true) ∧
    (Dbl.lt (.fin 0) (q.foldl slopeStep s).2 = true ↔ Dbl.lt (.fin 0) s.2 = true ∨ ∃ d ∈ q, Dbl.lt (.fin 0) d = true) ∧
    (Dbl.lt (.fin 0) (q.foldl slopeStep s).1 = true ↔
      Dbl.lt (.fin 0) s.1 = true ∧ ∀ d ∈ q, d.isNaN = false → Dbl.lt (.fin 0) d = true) ∧
    ((q.foldl slopeStep s).2.lt (.fin 0) = true ↔
      s.2.lt (.fin 0) = true ∧ ∀ d ∈ q, d.isNaN = false → d.lt (.fin 0) = true) := by
  intro q
  induction q with
  | nil => intro s h1 h2; simp [h1, h2]
  | cons d q ih =>
    intro s h1 h2
    rw [List.foldl_cons]
    have k1 : (slopeStep s d).1.isNaN = false := by
      unfold slopeStep; simp only []; split
      · exact Dbl.not_nan_of_lt_left (by assumption)
      · exact h1
    have k2 : (slopeStep s d).2.isNaN = false := by
      unfold slopeStep; simp only []; split
      · exact Dbl.not_nan_of_lt_right (by assumption)
      · exact h2
    obtain ⟨a, b, c1, c2, c3, c4⟩ := ih (slopeStep s d) k1 k2
    refine ⟨a, b, ?_, ?_, ?_, ?_⟩
    · rw [c1]
      have : (slopeStep s d).1.lt (.fin 0) = true ↔ s.1.lt (.fin 0) = true ∨ d.lt (.fin 0) = true := by
        unfold slopeStep; simp only []; split
        · rename_i h
          exact ⟨.inr, fun hh => hh.elim (Dbl.lt_trans h) id⟩
        · rename_i h
          refine ⟨.inl, fun hh => hh.elim id fun hd => ?_⟩
          exact Dbl.lt_of_le_of_lt (Dbl.le_of_not_lt (Dbl.not_nan_of_lt_left hd) h1 (by simpa using h)) hd
      rw [this]
      simp only [List.mem_cons, exists_eq_or_imp, or_assoc]
    · rw [c2]
      have : Dbl.lt (.fin 0) (slopeStep s d).2 = true ↔ Dbl.lt (.fin 0) s.2 = true ∨ Dbl.lt (.fin 0) d = true := by
        unfold slopeStep; simp only []; split
        · rename_i h
          exact ⟨.inr, fun hh => hh.elim (fun x => Dbl.lt_trans x h) id⟩
        · rename_i h
          refine ⟨.inl, fun hh => hh.elim id fun hd => ?_⟩
          exact Dbl.lt_of_lt_of_le hd (Dbl.le_of_not_lt h2 (Dbl.not_nan_of_lt_right hd) (by simpa using h))
      rw [this]
      simp only [List.mem_cons, exists_eq_or_imp, or_assoc]
    · rw [c3]
      have : Dbl.lt (.fin 0) (slopeStep s d).1 = true ↔
          Dbl.lt (.fin 0) s.1 = true ∧ (d.isNaN = false → Dbl.lt (.fin 0) d = true) := by
        unfold slopeStep; simp only []; split
        · rename_i h
          exact ⟨fun hd => ⟨Dbl.lt_trans hd h, fun _ => hd⟩,
            fun hh => hh.2 (Dbl.not_nan_of_lt_left h)⟩
        · rename_i h
          refine ⟨fun hs => ⟨hs, fun hd => ?_⟩, fun hh => hh.1⟩
          exact Dbl.lt_of_lt_of_le hs (Dbl.le_of_not_lt hd h1 (by simpa using h))
      rw [this]
      simp only [List.mem_cons, forall_eq_or_imp, and_assoc]
    · rw [c4]
      have : (slopeStep s d).2.lt (.fin 0) = true ↔
          s.2.lt (.fin 0) = true ∧ (d.isNaN = false → d.lt (.fin 0) = true) := by
        unfold slopeStep; simp only []; split
        · rename_i h
          exact ⟨fun hd => ⟨Dbl.lt_trans h hd, fun _ => hd⟩,
            fun hh => hh.2 (Dbl.not_nan_of_lt_right h)⟩
        · rename_i h
          refine ⟨fun hs => ⟨hs, fun hd => ?_⟩, fun hh => hh.1⟩
          exact Dbl.lt_of_le_of_lt (Dbl.le_of_not_lt h2 hd (by simpa using h)) hs
      rw [this]
      simp only [List.mem_cons, forall_eq_or_imp, and_assoc]

/-! ### Skipping rows -/

theorem skip_ok (bad : Dbl → Bool) (n : Nat) : ∀ (fuel inc : Nat) (v : List Dbl), v.length = n → inc ≤ n →
    n - inc < fuel → (∃ x ∈ v.drop inc, bad x = false) →
    skip bad (some v) n fuel inc = .ok (inc + (v.drop inc).findIdx (fun x => !bad x)) := by
  intro fuel
  induction fuel with
  | zero => intro inc v _ _ hf; omega
  | succ fuel ih =>
    intro inc v hv hi hf hex
    have hlt : inc < v.length := by
      obtain ⟨x, hx, -⟩ := hex
      have := List.length_pos_of_mem hx
      rw [List.length_drop] at this
      omega
    rw [skip, rdP_some, rd_lt hlt, Res.ok_bind, List.drop_eq_getElem_cons hlt, List.findIdx_cons]
    cases hb : bad v[inc]
    · simp
    · rw [if_pos rfl, if_neg (by omega)]
      rw [ih (inc + 1) v hv (by omega) (by omega) ?_]
      · simp only [Bool.not_true, cond_false]
        congr 1
        omega
      · obtain ⟨x, hx, hxb⟩ := hex
        rw [List.drop_eq_getElem_cons hlt, List.mem_cons] at hx
        rcases hx with rfl | hx
        · rw [hb] at hxb; cases hxb
        · exact ⟨x, hx, hxb⟩

theorem skip_ub (bad : Dbl → Bool) (n : Nat) : ∀ (fuel inc : Nat) (v : List Dbl), v.length = n → inc ≤ n →
    n - inc < fuel → (∀ x ∈ v.drop inc, bad x = true) → skip bad (some v) n fuel inc = .ub .oobRead := by
  intro fuel
  induction fuel with
  | zero => intro inc v _ _ hf; omega
  | succ fuel ih =>
    intro inc v hv hi hf hall
    by_cases hlt : inc < v.length
    · rw [List.drop_eq_getElem_cons hlt] at hall
      rw [skip, rdP_some, rd_lt hlt, Res.ok_bind, if_pos (hall _ List.mem_cons_self), if_neg (by omega)]
      exact ih (inc + 1) v hv (by omega) (by omega) (fun x hx => hall x (List.mem_cons_of_mem _ hx))
    · rw [skip, rdP_some, rd_ge (by omega)]
      rfl

/-! ### Reversal -/

/-- The geometry object with its six columns reversed. -/
def reversed (g : Csv) : Csv :=
  { g with arr := fun c => if c ∈ reverseCols then (g.arr c).map List.reverse else g.arr c }

theorem reverseAll_ok : ∀ (cs : List Col) (g : Csv), cs.Nodup → Sized g cs g.n →
    reverseAll cs g = .ok { g with arr := fun c => if c ∈ cs then (g.arr c).map List.reverse else g.arr c } := by
  intro cs
  induction cs with
  | nil => intro g _ _; simp [reverseAll]
  | cons c cs ih =>
    intro g hnd hS
    obtain ⟨l, e, hl⟩ := hS c (by simp)
    rw [reverseAll, e]
    unfold reverseArr
    simp only [hl, le_refl, if_true, Res.ok_bind]
    rw [List.take_of_length_le (by omega), List.drop_of_length_le (by omega), List.append_nil]
    rw [List.nodup_cons] at hnd
    rw [ih _ hnd.2 ?_]
    · congr 2
      funext c'
      by_cases h : c' = c
      · subst h; simp [hnd.1, e]
      · simp [h]
    · intro c' hc'
      have : c' ≠ c := fun h => hnd.1 (h ▸ hc')
      simp only [this, if_false]
      exact hS c' (by simp [hc'])

/-! ### Retained rows -/

theorem dropWhile_zip (p : Dbl → Bool) : ∀ (v l : List Dbl), v.length = l.length →
    ((v.zip l).dropWhile fun q => p q.1).map (·.2) = l.drop (v.findIdx fun x => !p x) := by
  intro v
  induction v with
  | nil => intro l h; cases l <;> simp_all
  | cons a v ih =>
    intro l h
    cases l with
    | nil => simp at h
    | cons b l =>
      rw [List.zip_cons_cons, List.dropWhile_cons, List.findIdx_cons]
      cases hp : p a
      · simp only [Bool.false_eq_true, if_false, List.map_cons, Bool.not_false, cond_true, List.drop_zero]
        congr 1
        rw [List.map_snd_zip (by simp at h; omega)]
      · simp only [if_true, Bool.not_true, cond_false, List.drop_succ_cons]
        exact ih l (by simpa using h)

/-! ### Filling -/

theorem fill_ok (f : Nat → Res Dbl) (g : Nat → Dbl) : ∀ (cnt lo : Nat),
    (∀ i, lo ≤ i → i < lo + cnt → f i = .ok (g i)) →
    fill f lo cnt = .ok ((List.range cnt).map fun i => g (lo + i)) := by
  intro cnt
  induction cnt with
  | zero => intro lo _; rfl
  | succ cnt ih =>
    intro lo h
    rw [fill, h lo (le_refl _) (by omega), Res.ok_bind, ih (lo + 1) (fun i a b => h i (by omega) (by omega)),
      Res.ok_bind, List.range_succ_eq_map, List.map_cons, List.map_map]
    congr 2
    apply List.map_congr_left
    intro i _
    simp only [Function.comp_apply]
    congr 1
    omega

theorem rdSlice_ok {l : List Dbl} : ∀ (len start : Nat), start + len ≤ l.length →
    rdSlice (some l) start len = .ok ((l.drop start).take len) := by
  intro len
  induction len with
  | zero => intro start _; simp [rdSlice]
  | succ len ih =>
    intro start h
    rw [rdSlice, rdP_some, rd_lt (by omega), Res.ok_bind, ih (start + 1) (by omega), Res.ok_bind,
      List.drop_eq_getElem_cons (by omega : start < l.length), List.take_succ_cons]

theorem interpCall_ok (L : DataLib) {xs ys ns out : List Dbl} {off len n : Nat} (hx : off + len = xs.length)
    (hy : off + len = ys.length) (hn : ns.length = n) (ho : out.length = n) :
    interpCall L (some xs) (some ys) off len (some ns) (some out) n =
      .ok (some (L.interp (xs.drop off) (ys.drop off) ns)) := by
  unfold interpCall
  rw [rdSlice_ok _ _ (by omega), Res.ok_bind, rdSlice_ok _ _ (by omega), Res.ok_bind,
    rdN_some_le (by omega), Res.ok_bind]
  simp only [ho, le_refl, if_true]
  rw [List.drop_of_length_le (l := out) (by omega), List.append_nil, List.take_of_length_le (l := ns) (by omega),
    List.take_of_length_le (by rw [List.length_drop]; omega), List.take_of_length_le (by rw [List.length_drop]; omega)]

end Verif
