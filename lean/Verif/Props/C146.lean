import Verif.Model.Typed
import Verif.Props.C145

/-!
# C146: the free-space regions that are typed are those that are used

rss_ringoccs/calibration/power_normalization.py 133-245.
-/
namespace Verif.Typed
open Verif.Pds

namespace Spec

/-- A region as it is typed: `[a,b]`. -/
def block (g : List Char × List Char) : List Char := '[' :: (g.1 ++ ',' :: g.2) ++ [']']

/-- The regions with `sep` between them. -/
def joined (sep : List Char) : List (List Char × List Char) → List Char
  | [] => []
  | [g] => block g
  | g :: h :: r => block g ++ sep ++ joined sep (h :: r)

/-- A list of lists as it is typed: `[[a,b],[c,d]]`. -/
def typed (sep : List Char) (l : List (List Char × List Char)) : List Char := '[' :: joined sep l ++ [']']

/-- A text for a number: without brackets that open and without comma. -/
def Plain (g : List Char × List Char) : Prop := '[' ∉ g.1 ∧ ',' ∉ g.1 ∧ '[' ∉ g.2 ∧ ',' ∉ g.2

/-- The numbers that texts stand for. -/
def Numbers {R : Type} (flt : List Char → Option R) (l : List (List Char × List Char)) (v : List (R × R)) : Prop :=
  List.Forall₂ (fun g x => flt g.1 = some x.1 ∧ flt g.2 = some x.2) l v

end Spec
open Spec

theorem opens_none {s : List Char} (h : '[' ∉ s) : ∀ (k : Nat) (t : List Char), opens k (s ++ t) = opens (k + s.length) t := by
  induction s with
  | nil => intro k t; rfl
  | cons c s ih =>
    intro k t
    have hc : ¬ c = '[' := fun e => h (by rw [e]; exact List.mem_cons_self)
    rw [List.cons_append, opens, if_neg hc, ih (fun hm => h (List.mem_cons_of_mem _ hm)), List.length_cons]
    congr 1
    omega

theorem opens_block {g : List Char × List Char} (h : Plain g) (k : Nat) (t : List Char) : opens k (block g ++ t) = k :: opens (k + (block g).length) t := by
  obtain ⟨h1, -, h2, -⟩ := h
  have hn : '[' ∉ (g.1 ++ ',' :: g.2) ++ [']'] := by
    simp only [List.mem_append, List.mem_cons, not_or]
    exact ⟨⟨h1, by decide, h2⟩, by decide, List.not_mem_nil⟩
  have e : block g ++ t = '[' :: (((g.1 ++ ',' :: g.2) ++ [']']) ++ t) := by simp [block]
  rw [e, opens, if_pos rfl, opens_none hn]
  congr 2
  simp [block]
  omega

theorem joined_block (sep : List Char) (g : List Char × List Char) (r : List (List Char × List Char)) : ∃ t, joined sep (g :: r) = block g ++ t := by
  cases r with
  | nil => exact ⟨[], by simp [joined]⟩
  | cons h r => exact ⟨sep ++ joined sep (h :: r), by rw [joined, List.append_assoc]⟩

theorem block_length (g : List Char × List Char) : (block g).length = (g.1 ++ ',' :: g.2).length + 2 := by simp [block]; omega

/-- What is cut out of the text for each region. -/
def pieceTexts (sep : List Char) : List (List Char × List Char) → List (List Char)
  | [] => []
  | [g] => [g.1 ++ ',' :: g.2]
  | g :: h :: r => ((g.1 ++ ',' :: g.2) ++ ']' :: sep).take ((g.1 ++ ',' :: g.2).length + sep.length - 2) :: pieceTexts sep (h :: r)

theorem cut_mid (p m q : List Char) (j : ℤ) (hj : j = p.length + m.length) : cut p.length j (p ++ (m ++ q)) = m := by
  unfold cut place
  rw [if_neg (by omega), if_neg (by omega), hj]
  rw [show ((p.length : ℤ) + m.length).toNat = (p ++ m).length by simp; omega, ← List.append_assoc, List.take_left' rfl, Int.toNat_natCast, List.drop_left' rfl]

theorem cut_end (p m : List Char) (c : Char) : cut p.length (-1) (p ++ (m ++ [c])) = m := by
  unfold cut place
  rw [if_pos (show (-1 : ℤ) < 0 by decide), if_neg (show ¬ ((p.length : ℤ) < 0) by omega)]
  rw [show (-1 + ((p ++ (m ++ [c])).length : ℤ)).toNat = (p ++ m).length by simp; omega, ← List.append_assoc, List.take_left' rfl, Int.toNat_natCast, List.drop_left' rfl]

theorem pieces_joined {sep : List Char} (hs : '[' ∉ sep) : ∀ (l : List (List Char × List Char)) (pre : List Char), (∀ g ∈ l, Plain g) →
    pieces (pre ++ joined sep l) (opens pre.length (joined sep l)) = pieceTexts sep l
  | [], pre, _ => rfl
  | [g], pre, hp => by
    have e : joined sep [g] = block g ++ [] := by simp [joined]
    rw [e, opens_block (hp g (by simp))]
    show [cut _ _ _] = _
    rw [pieceTexts, show pre ++ (block g ++ []) = (pre ++ ['[']) ++ ((g.1 ++ ',' :: g.2) ++ [']']) by simp [block]]
    rw [show ((pre.length : ℤ) + 1) = (((pre ++ ['[']).length : Nat) : ℤ) by simp, cut_end]
  | g :: h :: r, pre, hp => by
    have e : joined sep (g :: h :: r) = block g ++ (sep ++ joined sep (h :: r)) := by rw [joined, List.append_assoc]
    have ih := pieces_joined hs (h :: r) (pre ++ (block g ++ sep)) (fun x hx => hp x (List.mem_cons_of_mem _ hx))
    obtain ⟨t, ht⟩ := joined_block sep h r
    rw [e, opens_block (hp g (by simp)), opens_none hs]
    rw [show pre.length + (block g).length + sep.length = (pre ++ (block g ++ sep)).length by simp; omega]
    rw [show pre ++ (block g ++ (sep ++ joined sep (h :: r))) = (pre ++ (block g ++ sep)) ++ joined sep (h :: r) by simp]
    have ho : opens (pre ++ (block g ++ sep)).length (joined sep (h :: r)) =
        (pre ++ (block g ++ sep)).length :: opens ((pre ++ (block g ++ sep)).length + (block h).length) t := by
      rw [ht, opens_block (hp h (by simp))]
    rw [ho] at ih ⊢
    rw [pieces, ih, pieceTexts]
    congr 1
    obtain ⟨n, hn⟩ : ∃ n, n = (g.1 ++ ',' :: g.2).length + sep.length - 2 := ⟨_, rfl⟩
    have hl : 1 ≤ (g.1 ++ ',' :: g.2).length := by simp; omega
    rw [← hn]
    have hle : n ≤ ((g.1 ++ ',' :: g.2) ++ ']' :: sep).length := by
      rw [List.length_append, List.length_cons]; omega
    have hw : (pre ++ (block g ++ sep)) ++ joined sep (h :: r) =
        (pre ++ ['[']) ++ (((g.1 ++ ',' :: g.2) ++ ']' :: sep).take n ++ (((g.1 ++ ',' :: g.2) ++ ']' :: sep).drop n ++ joined sep (h :: r))) := by
      rw [← List.append_assoc (List.take _ _), List.take_append_drop]
      simp [block]
    rw [hw]
    rw [show ((pre.length : ℤ) + 1) = (((pre ++ ['[']).length : Nat) : ℤ) by simp]
    by_cases h0 : 2 ≤ (g.1 ++ ',' :: g.2).length + sep.length
    · apply cut_mid
      rw [List.length_take, Nat.min_eq_left hle, hn]
      have hb := block_length g
      simp only [List.length_append, List.length_singleton] at hb h0 ⊢
      omega
    · have hn0 : n = 0 := by omega
      subst hn0
      have hb := block_length g
      have hz : (((pre ++ (block g ++ sep)).length : ℤ) - 3).toNat ≤ pre.length := by
        simp only [List.length_append] at hb h0 ⊢; omega
      have hz0 : ¬ (((pre ++ (block g ++ sep)).length : ℤ) - 3 < 0) := by
        simp only [List.length_append] at hb hl ⊢; omega
      unfold cut place
      rw [if_neg hz0, if_neg (show ¬ (((pre ++ ['[']).length : ℤ) < 0) by omega), List.take_zero]
      apply List.drop_eq_nil_of_le
      rw [List.length_take]
      simp only [List.length_append, List.length_singleton] at hz ⊢
      omega

theorem cut_outer (sep : List Char) (l : List (List Char × List Char)) : cut 1 (-1) (typed sep l) = joined sep l := by
  have := cut_end ['['] (joined sep l) ']'
  simpa [typed] using this

theorem pair_ok {R : Type} {flt : List Char → Option R} {g : List Char × List Char} {x : R × R} (hp : Plain g) (h1 : flt g.1 = some x.1)
    (h2 : flt g.2 = some x.2) : pair flt (g.1 ++ ',' :: g.2) = .ok x := by
  unfold pair
  rw [Verif.Pick.splitOn_append, Verif.Rev.splitOn_none hp.2.1, Verif.Rev.splitOn_none hp.2.2.2]
  simp only [List.singleton_append, h1, h2]

/-- With two characters between the regions, a comma and a space or (as the program prints them) a comma and the end of a line, the regions are those
that are typed. -/
theorem C146_typed {R : Type} {flt : List Char → Option R} {sep : List Char} (hs : '[' ∉ sep) (h2 : sep.length = 2) {l : List (List Char × List Char)}
    {v : List (R × R)} (hp : ∀ g ∈ l, Plain g) (hv : Numbers flt l v) : extract flt (cut 1 (-1) (typed sep l)) = .ok v := by
  have hx : pieceTexts sep l = l.map fun g => g.1 ++ ',' :: g.2 := by
    clear hv hp
    induction l with
    | nil => rfl
    | cons g r ih =>
      cases r with
      | nil => rfl
      | cons h r =>
        rw [pieceTexts, ih, h2, Nat.add_sub_cancel, List.take_left' rfl, List.map_cons]
        rfl
  have hj := pieces_joined hs l [] hp
  rw [List.nil_append, List.length_nil] at hj
  rw [extract, cut_outer, hj, hx]
  clear hj hx
  induction hv with
  | nil => rfl
  | cons hgx _ ih =>
    rw [List.map_cons, List.mapM_cons, pair_ok (hp _ (by simp)) hgx.1 hgx.2, ih fun g hg => hp g (List.mem_cons_of_mem _ hg)]
    rfl

/-- Digits only. -/
def digits (s : List Char) : Option ℕ := if s = [] then none else s.foldl (fun o c => o.bind fun n => if c.isDigit then some (10 * n + (c.toNat - 48)) else none) (some 0)

example : extract digits (cut 1 (-1) (typed ", ".toList [("100".toList, "250".toList), ("300".toList, "412".toList)])) = .ok [(100, 250), (300, 412)] :=
  C146_typed (by decide) (by decide) (by unfold Plain; decide) (.cons ⟨by decide, by decide⟩ (.cons ⟨by decide, by decide⟩ .nil))

/-- With only a comma between them, each region but the last loses the last digit of its upper limit. -/
theorem C146_comma_false {R : Type} {flt : List Char → Option R} {l : List (List Char × List Char)} {a b : List Char} {c : Char} {g' : List Char × List Char}
    {x x' : R × R} {v : List (R × R)} (hl : Plain (a, b ++ [c])) (hl' : Plain g') (hp : ∀ g ∈ l, Plain g) (h1 : flt a = some x.1) (h2 : flt b = some x.2) :
    extract flt (cut 1 (-1) (typed [','] (g' :: l))) = .ok (x' :: v) →
      extract flt (cut 1 (-1) (typed [','] ((a, b ++ [c]) :: g' :: l))) = .ok (x :: x' :: v) := by
  intro h
  have hj := pieces_joined (sep := [',']) (by decide) ((a, b ++ [c]) :: g' :: l) [] (by
    intro g hg
    rcases List.mem_cons.mp hg with rfl | hg
    · exact hl
    rcases List.mem_cons.mp hg with rfl | hg
    · exact hl'
    · exact hp g hg)
  have hj' := pieces_joined (sep := [',']) (by decide) (g' :: l) [] (by
    intro g hg
    rcases List.mem_cons.mp hg with rfl | hg
    · exact hl'
    · exact hp g hg)
  rw [List.nil_append, List.length_nil] at hj hj'
  rw [extract, cut_outer, hj'] at h
  rw [extract, cut_outer, hj, pieceTexts, List.mapM_cons, h]
  have hcut : (a ++ ',' :: (b ++ [c]) ++ ']' :: [',']).take ((a ++ ',' :: (b ++ [c])).length + [','].length - 2) = a ++ ',' :: b := by
    rw [show a ++ ',' :: (b ++ [c]) ++ ']' :: [','] = (a ++ ',' :: b) ++ [c, ']', ','] by simp]
    apply List.take_left'
    simp
  show (pair flt (List.take _ _) >>= _) = _
  rw [hcut, pair_ok (g := (a, b)) ⟨hl.1, hl.2.1, fun hm => hl.2.2.1 (List.mem_append_left _ hm), fun hm => hl.2.2.2 (List.mem_append_left _ hm)⟩ h1 h2]
  rfl

/-- `[[100,250],[300,412]]` is read as `[[100,25],[300,412]]`. -/
example : extract digits (cut 1 (-1) "[[100,250],[300,412]]".toList) = .ok [(100, 25), (300, 412)] := by decide +kernel

example : extract digits (cut 1 (-1) "[[100,250],[300,412]]".toList) = .ok [(100, 25), (300, 412)] :=
  C146_comma_false (l := []) (a := "100".toList) (b := "25".toList) (c := '0') (g' := ("300".toList, "412".toList)) (by unfold Plain; decide) (by unfold Plain; decide)
    (by simp) (by decide) (by decide) (by decide +kernel)

/-- A region whose upper limit has one digit ends the program. -/
example : extract digits (cut 1 (-1) "[[1,2],[3,4]]".toList) = .error .value := by decide +kernel

/-- A space after the last bracket ends the program as well. -/
example : extract digits (cut 1 (-1) "[[1,2]] ".toList) = .error .value := by decide +kernel

/-! ### The dialogue -/

/-- An answer without `n` leaves everything as it is. -/
theorem C146_accept {R : Type} (flt : List Char → Option R) (int : List Char → Option ℤ) (keep : List (R × R) → Except Stop (List (R × R))) (gaps : List (R × R))
    (k : ℤ) (a : List Char) (ans : List (List Char)) (h : 'n' ∉ a ∧ 'N' ∉ a) :
    fitCheck flt int keep gaps k (a :: ans) = .ok ⟨[gaps], 0, 0, k, none⟩ := by
  have hn : no a = false := by simp [no, h.1, h.2]
  show loop flt int keep ans.length _ a ans = _
  cases ans <;> simp [loop, hn]

/-- Whoever answers with a word that has an `n`, is asked again. -/
theorem C146_answer_false {R : Type} (flt : List Char → Option R) (int : List Char → Option ℤ) (keep : List (R × R) → Except Stop (List (R × R)))
    (gaps : List (R × R)) (k : ℤ) : fitCheck flt int keep gaps k ["continue".toList] = .error .eof ∧ fitCheck flt int keep gaps k ["fine".toList] = .error .eof :=
  ⟨rfl, rfl⟩

namespace Spec

/-- The answers with which new regions are typed: no, change, not the default, the regions, type and order of the fit, and agreed. -/
structure Answers (a : List (List Char)) (text fittype order : List Char) : Prop where
  form : ∃ a1 a2 a3 a4 rest, a = a1 :: a2 :: a3 :: text :: fittype :: order :: a4 :: rest ∧ ('n' ∈ a1 ∨ 'N' ∈ a1) ∧ ('y' ∈ a2 ∨ 'Y' ∈ a2) ∧
    ('y' ∉ a3 ∧ 'Y' ∉ a3) ∧ 'n' ∉ a4 ∧ 'N' ∉ a4

/-- The same with the default. -/
structure Reverts (a : List (List Char)) (fittype order : List Char) : Prop where
  form : ∃ a1 a2 a3 a4 rest, a = a1 :: a2 :: a3 :: fittype :: order :: a4 :: rest ∧ ('n' ∈ a1 ∨ 'N' ∈ a1) ∧ ('y' ∈ a2 ∨ 'Y' ∈ a2) ∧
    ('y' ∈ a3 ∨ 'Y' ∈ a3) ∧ 'n' ∉ a4 ∧ 'N' ∉ a4

end Spec

theorem no_true {a : List Char} (h : 'n' ∈ a ∨ 'N' ∈ a) : no a = true := by simpa [no] using h
theorem no_false {a : List Char} (h : 'n' ∉ a ∧ 'N' ∉ a) : no a = false := by simpa [no] using h
theorem yes_true {a : List Char} (h : 'y' ∈ a ∨ 'Y' ∈ a) : yes a = true := by simpa [yes] using h
theorem yes_false {a : List Char} (h : 'y' ∉ a ∧ 'Y' ∉ a) : yes a = false := by simpa [yes] using h

theorem loop_done {R : Type} {flt : List Char → Option R} {int : List Char → Option ℤ} {keep : List (R × R) → Except Stop (List (R × R))} {n : Nat}
    {st : State R} {cont : List Char} {ans : List (List Char)} (h : no cont = false) : loop flt int keep n st cont ans = .ok st := by
  cases n <;> simp [loop, h]

/-- The regions that are typed, without those that the mask refuses, are returned, with the order that is typed. -/
theorem C146_new {R : Type} {flt : List Char → Option R} {int : List Char → Option ℤ} {keep : List (R × R) → Except Stop (List (R × R))} {gaps : List (R × R)}
    {k k' : ℤ} {ans : List (List Char)} {text fittype o : List Char} {v v' : List (R × R)} (ha : Answers ans text fittype o)
    (hb : "[[".toList <:+: text ∨ "]]".toList <:+: text) (hv : extract flt (cut 1 (-1) text) = .ok v) (hk : keep v = .ok v') (ho : int o = some k') :
    ∃ st, fitCheck flt int keep gaps k ans = .ok st ∧ st.result = v' ∧ st.lists.getD st.own [] = v' ∧ st.order = k' ∧ st.fit = some (fittype, k') ∧
      st.lists.getD 0 [] = gaps := by
  obtain ⟨a1, a2, a3, a4, rest, rfl, n1, y2, y3, n4⟩ := ha.form
  have hnb : ¬ (¬ "[[".toList <:+: text ∧ ¬ "]]".toList <:+: text) := by tauto
  refine ⟨⟨[gaps, v'], 1, 1, k', some (fittype, k')⟩, ?_, rfl, rfl, rfl, rfl, rfl⟩
  show loop flt int keep _ _ a1 _ = _
  rw [List.length_cons, loop, if_pos (no_true n1)]
  simp only [turn, maybeChange, change, ask, bind, Except.bind, pure, Except.pure, yes_true y2, yes_false y3, if_true, Bool.false_eq_true, if_false, entry,
    if_neg hnb, hv, remask, List.singleton_append, List.length_singleton, order]
  simp only [List.getD_cons_succ, List.getD_cons_zero, hk, List.set_cons_succ, List.set_cons_zero, ho]
  exact loop_done (no_false n4)

/-- Typing regions without double brackets leaves those of the last mask; here the mask is made again for them. -/
theorem C146_invalid {R : Type} {flt : List Char → Option R} {int : List Char → Option ℤ} {keep : List (R × R) → Except Stop (List (R × R))} {gaps : List (R × R)}
    {k k' : ℤ} {ans : List (List Char)} {text fittype o : List Char} {v' : List (R × R)} (ha : Answers ans text fittype o)
    (hb : ¬ "[[".toList <:+: text ∧ ¬ "]]".toList <:+: text) (hk : keep gaps = .ok v') (ho : int o = some k') :
    ∃ st, fitCheck flt int keep gaps k ans = .ok st ∧ st.result = v' ∧ st.order = k' := by
  obtain ⟨a1, a2, a3, a4, rest, rfl, n1, y2, y3, n4⟩ := ha.form
  refine ⟨⟨[v'], 0, 0, k', some (fittype, k')⟩, ?_, rfl, rfl⟩
  show loop flt int keep _ _ a1 _ = _
  rw [List.length_cons, loop, if_pos (no_true n1)]
  simp only [turn, maybeChange, change, ask, bind, Except.bind, pure, Except.pure, yes_true y2, yes_false y3, if_true, Bool.false_eq_true, if_false, entry,
    if_pos hb, remask, List.getD_cons_zero, hk, List.set_cons_zero, order, ho]
  exact loop_done (no_false n4)

/-- The second time, an invalid text leaves the regions that were typed the first time (without those that the mask refuses then), not the default ones. -/
theorem C146_invalid_later {R : Type} {flt : List Char → Option R} {int : List Char → Option ℤ} {keep : List (R × R) → Except Stop (List (R × R))}
    {gaps : List (R × R)} {k k' k'' : ℤ} {a1 a2 a3 text fittype o : List Char} {ans : List (List Char)} {text2 fittype2 o2 : List Char} {v v' v'' : List (R × R)}
    (n1 : 'n' ∈ a1 ∨ 'N' ∈ a1) (y2 : 'y' ∈ a2 ∨ 'Y' ∈ a2) (y3 : 'y' ∉ a3 ∧ 'Y' ∉ a3)
    (hb : "[[".toList <:+: text ∨ "]]".toList <:+: text) (hv : extract flt (cut 1 (-1) text) = .ok v) (hk : keep v = .ok v') (ho : int o = some k')
    (ha : Answers ans text2 fittype2 o2) (hb2 : ¬ "[[".toList <:+: text2 ∧ ¬ "]]".toList <:+: text2) (hk2 : keep v' = .ok v'') (ho2 : int o2 = some k'') :
    ∃ st, fitCheck flt int keep gaps k (a1 :: a2 :: a3 :: text :: fittype :: o :: ans) = .ok st ∧ st.result = v'' ∧ st.order = k'' := by
  obtain ⟨b1, b2, b3, b4, rest, rfl, m1, z2, z3, m4⟩ := ha.form
  have hnb : ¬ (¬ "[[".toList <:+: text ∧ ¬ "]]".toList <:+: text) := by tauto
  refine ⟨⟨[gaps, v''], 1, 1, k'', some (fittype2, k'')⟩, ?_, rfl, rfl⟩
  show loop flt int keep _ _ a1 _ = _
  rw [List.length_cons, loop, if_pos (no_true n1)]
  simp only [turn, maybeChange, change, ask, bind, Except.bind, pure, Except.pure, yes_true y2, yes_false y3, if_true, Bool.false_eq_true, if_false, entry,
    if_neg hnb, hv, remask, List.singleton_append, List.length_singleton, order]
  simp only [List.getD_cons_succ, List.getD_cons_zero, hk, List.set_cons_succ, List.set_cons_zero, ho, List.length_cons]
  rw [loop, if_pos (no_true m1)]
  simp only [turn, maybeChange, change, ask, bind, Except.bind, pure, Except.pure, yes_true z2, yes_false z3, if_true, Bool.false_eq_true, if_false, entry,
    if_pos hb2, remask, order]
  simp only [List.getD_cons_succ, List.getD_cons_zero, hk2, List.set_cons_succ, List.set_cons_zero, ho2]
  exact loop_done (no_false m4)

example : ∃ st, fitCheck digits (fun _ => some 2) (fun g => .ok g) [(1, 2)] 1
    ["no".toList, "yes".toList, "no".toList, "[[10,20], [30,45]]".toList, "poly".toList, "2".toList,
     "no".toList, "yes".toList, "no".toList, "none".toList, "poly".toList, "2".toList, "y".toList] = .ok st ∧ st.result = [(10, 20), (30, 45)] := by
  obtain ⟨st, h, hr, -⟩ := C146_invalid_later (flt := digits) (int := fun _ => some 2) (keep := fun g => .ok g) (gaps := [(1, 2)]) (k := 1)
    (text := "[[10,20], [30,45]]".toList) (fittype := "poly".toList) (o := "2".toList) (v := [(10, 20), (30, 45)]) (k' := 2) (k'' := 2)
    (a1 := "no".toList) (a2 := "yes".toList) (a3 := "no".toList) (text2 := "none".toList) (fittype2 := "poly".toList) (o2 := "2".toList)
    (ans := ["no".toList, "yes".toList, "no".toList, "none".toList, "poly".toList, "2".toList, "y".toList])
    (by decide) (by decide) (by decide) (.inl (by decide +kernel)) (by decide +kernel) rfl rfl ⟨_, _, _, _, _, rfl, by decide⟩ (by decide +kernel) rfl rfl
  exact ⟨st, h, hr⟩

/-- After new regions were typed, going back to the default gives the default regions again, without those that the mask refuses then. -/
theorem C146_default_later {R : Type} {flt : List Char → Option R} {int : List Char → Option ℤ} {keep : List (R × R) → Except Stop (List (R × R))}
    {gaps g : List (R × R)} {k k' k'' : ℤ} {a1 a2 a3 text fittype o : List Char} {ans : List (List Char)} {fittype2 o2 : List Char} {v v' : List (R × R)}
    (n1 : 'n' ∈ a1 ∨ 'N' ∈ a1) (y2 : 'y' ∈ a2 ∨ 'Y' ∈ a2) (y3 : 'y' ∉ a3 ∧ 'Y' ∉ a3)
    (hb : "[[".toList <:+: text ∨ "]]".toList <:+: text) (hv : extract flt (cut 1 (-1) text) = .ok v) (hk : keep v = .ok v') (ho : int o = some k')
    (ha : Reverts ans fittype2 o2) (hk2 : keep gaps = .ok g) (ho2 : int o2 = some k'') :
    ∃ st, fitCheck flt int keep gaps k (a1 :: a2 :: a3 :: text :: fittype :: o :: ans) = .ok st ∧ st.result = g ∧ st.order = k'' := by
  obtain ⟨b1, b2, b3, b4, rest, rfl, m1, z2, z3, m4⟩ := ha.form
  have hnb : ¬ (¬ "[[".toList <:+: text ∧ ¬ "]]".toList <:+: text) := by tauto
  refine ⟨⟨[g, v'], 0, 0, k'', some (fittype2, k'')⟩, ?_, rfl, rfl⟩
  show loop flt int keep _ _ a1 _ = _
  rw [List.length_cons, loop, if_pos (no_true n1)]
  simp only [turn, maybeChange, change, ask, bind, Except.bind, pure, Except.pure, yes_true y2, yes_false y3, if_true, Bool.false_eq_true, if_false, entry,
    if_neg hnb, hv, remask, List.singleton_append, List.length_singleton, order]
  simp only [List.getD_cons_succ, List.getD_cons_zero, hk, List.set_cons_succ, List.set_cons_zero, ho, List.length_cons]
  rw [loop, if_pos (no_true m1)]
  simp only [turn, maybeChange, change, ask, bind, Except.bind, pure, Except.pure, yes_true z2, yes_true z3, if_true, remask, order]
  simp only [List.getD_cons_zero, hk2, List.set_cons_zero, ho2]
  exact loop_done (no_false m4)

example : ∃ st, fitCheck digits (fun _ => some 2) (fun g => .ok g) [(1, 2)] 1
    ["no".toList, "yes".toList, "no".toList, "[[10,20], [30,45]]".toList, "poly".toList, "2".toList,
     "no".toList, "yes".toList, "yes".toList, "poly".toList, "2".toList, "y".toList] = .ok st ∧ st.result = [(1, 2)] := by
  obtain ⟨st, h, hr, -⟩ := C146_default_later (flt := digits) (int := fun _ => some 2) (keep := fun g => .ok g) (gaps := [(1, 2)]) (k := 1)
    (text := "[[10,20], [30,45]]".toList) (fittype := "poly".toList) (o := "2".toList) (v := [(10, 20), (30, 45)]) (k' := 2) (k'' := 2)
    (a1 := "no".toList) (a2 := "yes".toList) (a3 := "no".toList) (fittype2 := "poly".toList) (o2 := "2".toList)
    (ans := ["no".toList, "yes".toList, "yes".toList, "poly".toList, "2".toList, "y".toList])
    (by decide) (by decide) (by decide) (.inl (by decide +kernel)) (by decide +kernel) rfl rfl ⟨_, _, _, _, _, rfl, by decide⟩ rfl rfl
  exact ⟨st, h, hr⟩

/-- Going back to the default gives the default regions when the mask keeps all of them.  (Full claim: always; see `C146_default_false`.) -/
theorem C146_default_partial {R : Type} {flt : List Char → Option R} {int : List Char → Option ℤ} {keep : List (R × R) → Except Stop (List (R × R))}
    {gaps : List (R × R)} {k k' : ℤ} {ans : List (List Char)} {fittype o : List Char} (ha : Reverts ans fittype o) (hk : keep gaps = .ok gaps)
    (ho : int o = some k') : ∃ st, fitCheck flt int keep gaps k ans = .ok st ∧ st.result = gaps ∧ st.order = k' := by
  obtain ⟨a1, a2, a3, a4, rest, rfl, n1, y2, y3, n4⟩ := ha.form
  refine ⟨⟨[gaps], 0, 0, k', some (fittype, k')⟩, ?_, rfl, rfl⟩
  show loop flt int keep _ _ a1 _ = _
  rw [List.length_cons, loop, if_pos (no_true n1)]
  simp only [turn, maybeChange, change, ask, bind, Except.bind, pure, Except.pure, yes_true y2, yes_true y3, if_true, remask, List.getD_cons_zero, hk,
    List.set_cons_zero, order, ho]
  exact loop_done (no_false n4)

/-- `create_mask` for given times and powers, as far as the regions are concerned. -/
def keepOf (spm pc : List ℚ) (g : List (ℚ × ℚ)) : Except Stop (List (ℚ × ℚ)) :=
  match Verif.Cal.createMask spm g pc 3 with
  | .error _ => .error .index
  | .ok m => .ok m.gaps

/-- Regions at the times 1 to 4 and the power in them. -/
def demoSpm : List ℚ := [0, 1, 2, 3, 4]
def demoPow : List ℚ := [1 / 10, 10, 6, 6, 6]
def demoGaps : List (ℚ × ℚ) := [(0, 0), (1, 1), (2, 2), (3, 3), (4, 4)]

/-- The default is not what was there at first: the mask is normalized with the regions that are left, and removes more of them each time from the
list of the default itself. -/
theorem C146_default_false : keepOf demoSpm demoPow demoGaps = .ok (demoGaps.drop 1) ∧
    ∃ st, fitCheck (fun _ => some 0) (fun _ => some 3) (keepOf demoSpm demoPow) (demoGaps.drop 1) 1
      ["n".toList, "y".toList, "y".toList, "poly".toList, "3".toList, "y".toList] = .ok st ∧ st.result = demoGaps.drop 2 ∧ st.lists.getD 0 [] = demoGaps.drop 2 := by
  refine ⟨by decide +kernel, ⟨[demoGaps.drop 2], 0, 0, 3, some ("poly".toList, 3)⟩, by decide +kernel, rfl, rfl⟩

example : ∃ st, fitCheck digits (fun _ => some 2) (fun g => .ok g) [(1, 2)] 1
    ["no".toList, "yes".toList, "no".toList, "[[10,20], [30,45]]".toList, "poly".toList, "2".toList, "y".toList] = .ok st ∧ st.result = [(10, 20), (30, 45)] := by
  obtain ⟨st, h, hr, -⟩ := C146_new (flt := digits) (int := fun _ => some 2) (keep := fun g => .ok g) (gaps := [(1, 2)]) (k := 1) (text := "[[10,20], [30,45]]".toList)
    (fittype := "poly".toList) (o := "2".toList) (v := [(10, 20), (30, 45)]) (k' := 2)
    (ans := ["no".toList, "yes".toList, "no".toList, "[[10,20], [30,45]]".toList, "poly".toList, "2".toList, "y".toList])
    ⟨_, _, _, _, _, rfl, by decide⟩ (.inl (by decide +kernel)) (by decide +kernel) rfl rfl
  exact ⟨st, h, hr⟩

/-- Single brackets are refused, and `no way` is taken for a yes. -/
example : ∃ st, fitCheck digits (fun _ => some 2) (fun g => .ok g) [(1, 2)] 1
    ["no".toList, "no way".toList, "no".toList, "[10,20]".toList, "poly".toList, "2".toList, "y".toList] = .ok st ∧ st.result = [(1, 2)] := by
  obtain ⟨st, h, hr, -⟩ := C146_invalid (flt := digits) (int := fun _ => some 2) (keep := fun g => .ok g) (gaps := [(1, 2)]) (k := 1) (text := "[10,20]".toList)
    (fittype := "poly".toList) (o := "2".toList) (k' := 2)
    (ans := ["no".toList, "no way".toList, "no".toList, "[10,20]".toList, "poly".toList, "2".toList, "y".toList])
    ⟨_, _, _, _, _, rfl, by decide⟩ (by decide +kernel) rfl rfl
  exact ⟨st, h, hr⟩

example : ∃ st, fitCheck digits (fun _ => some 2) (fun g => .ok g) [(1, 2)] 1 ["n".toList, "y".toList, "y".toList, "poly".toList, "2".toList, "y".toList] = .ok st ∧
    st.result = [(1, 2)] ∧ st.order = 2 :=
  C146_default_partial (o := "2".toList) (fittype := "poly".toList) ⟨_, _, _, _, _, rfl, by decide⟩ rfl rfl

end Verif.Typed
