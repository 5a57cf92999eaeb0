import Verif.Model.Pick
import Verif.Props.C144

/-!
# C145 The kernel of an event
-/
namespace Verif.Pick
open Verif.Rsr Verif.Out Verif.Pds Verif.Rev

namespace Spec

/-- A digit. -/
def ch (n : Nat) : Char := Char.ofNat (48 + n)

/-- Year and day of the year in five digits. -/
def five (y d : Nat) : List Char := [ch (y / 10), ch (y % 10), ch (d / 100), ch (d / 10 % 10), ch (d % 10)]

/-- A kernel: the seven characters of its date of production, the first and the last day. -/
structure Kern where
  stem : List Char
  y1 : Nat
  d1 : Nat
  y2 : Nat
  d2 : Nat

/-- The name. -/
def Kern.name (k : Kern) : List Char := k.stem ++ "_SCPSE_".toList ++ five k.y1 k.d1 ++ '_' :: five k.y2 k.d2 ++ ".bsp".toList

/-- The day is one of those of the kernel. -/
def Kern.Covers (k : Kern) (y d : Nat) : Prop := (k.y1 < y ∨ k.y1 = y ∧ k.d1 ≤ d) ∧ (y < k.y2 ∨ y = k.y2 ∧ d ≤ k.d2)

/-- A line of the list of kernels that names a kernel of the spacecraft, or another one. -/
def Line (l : List Char) : Option Kern → Prop
  | none => ¬ "SCPSE".toList <:+: l
  | some k => ∃ pre post, l = pre ++ "$A/".toList ++ k.name ++ post ∧ '$' ∉ pre ∧ ¬ "SCPSE".toList <:+: pre ++ "$A/".toList ++ k.stem ∧
      k.stem.length = 7 ∧ k.y1 < 100 ∧ k.d1 < 1000 ∧ k.y2 < 100 ∧ k.d2 < 1000

/-- A path of the archive with the day `d` of the year `2000 + y`. -/
def Dated (p : List Char) (y d : Nat) : Prop :=
  ∃ a c rest, p = a ++ c :: "_RSS_20".toList ++ [ch (y / 10), ch (y % 10), '_', ch (d / 100), ch (d / 10 % 10), ch (d % 10)] ++ rest ∧ c ∉ "_RSS_".toList ∧
    ¬ "_RSS_".toList <:+: a ∧ y < 100 ∧ d < 1000

/-- The directory of the kernels. -/
def dir : List Char := "naif/CASSINI/kernels/spk/".toList

end Spec
open Verif.Pick.Spec

/-! ### Texts -/

theorem index_after {q a r : List Char} {c : Char} (hq : q ≠ []) (hc : c ∉ q) (ha : ¬ q <:+: a) : index q (a ++ c :: (q ++ r)) = .ok (a.length + 1) := by
  apply index_at hq
  · rw [show a ++ c :: (q ++ r) = (a ++ [c]) ++ (q ++ r) by simp, List.drop_left' (by simp)]
    exact List.prefix_append _ _
  · intro j hj hp
    rw [List.drop_append_of_le_length (by omega)] at hp
    obtain ⟨t, e⟩ := hp
    rcases List.append_eq_append_iff.mp e with ⟨u, e1, e2⟩ | ⟨u, e1, e2⟩
    · exact ha ⟨a.take j, u, by rw [List.append_assoc, ← e1, List.take_append_drop]⟩
    · cases u with
      | nil =>
        rw [List.append_nil] at e1
        exact ha ⟨a.take j, [], by rw [e1, List.append_nil, List.take_append_drop]⟩
      | cons x u =>
        have : c = x := by simpa using (List.cons.inj e2).1
        exact hc (by rw [e1, this]; simp)

theorem index_dollar {pre r : List Char} (h : '$' ∉ pre) : index "$A/".toList (pre ++ ("$A/".toList ++ r)) = .ok pre.length := by
  apply index_at (by decide)
  · rw [List.drop_left]
    exact List.prefix_append _ _
  · intro j hj hp
    rw [List.drop_append_of_le_length (by omega)] at hp
    cases hd : pre.drop j with
    | nil =>
      have := congrArg List.length hd
      simp only [List.length_drop, List.length_nil] at this
      omega
    | cons x u =>
      rw [hd] at hp
      have : '$' = x := (List.cons_prefix_cons.mp hp).1
      exact h (List.mem_of_mem_drop (i := j) (by rw [hd, this]; simp))

theorem five_int {y d : Nat} (hy : y < 100) (hd : d < 1000) : pyIntDigits (five y d) = .ok (1000 * y + d) := by
  have dg : ∀ n, n < 10 → isDigit (ch n) = true ∧ (ch n).toNat = 48 + n := by decide
  obtain ⟨a1, b1⟩ := dg (y / 10) (by omega)
  obtain ⟨a2, b2⟩ := dg (y % 10) (by omega)
  obtain ⟨a3, b3⟩ := dg (d / 100) (by omega)
  obtain ⟨a4, b4⟩ := dg (d / 10 % 10) (by omega)
  obtain ⟨a5, b5⟩ := dg (d % 10) (by omega)
  rw [pyIntDigits, if_pos ⟨by simp [five], by simp [five, a1, a2, a3, a4, a5]⟩]
  simp only [five, value, List.foldl_cons, List.foldl_nil, b1, b2, b3, b4, b5]
  congr 1
  omega

theorem covers_iff {k : Kern} {y d : Nat} (h1 : k.d1 < 1000) (h2 : k.d2 < 1000) (hd : d < 1000) :
    (1000 * k.y1 + k.d1 ≤ 1000 * y + d ∧ 1000 * y + d ≤ 1000 * k.y2 + k.d2) ↔ k.Covers y d := by
  unfold Kern.Covers
  omega

/-! ### Kernels -/

theorem kernelOf_other (day : Nat) {l : List Char} (h : ¬ "SCPSE".toList <:+: l) : kernelOf day l = none := by
  simp only [kernelOf, index_error (show "SCPSE".toList ≠ [] by decide) h, bind, Except.bind]

theorem kernelOf_line {l : List Char} {k : Kern} (h : Line l (some k)) {y d : Nat} (hd : d < 1000) :
    (k.Covers y d → kernelOf (1000 * y + d) l = some k.name) ∧ (¬ k.Covers y d → kernelOf (1000 * y + d) l = none) := by
  obtain ⟨pre, post, rfl, hpre, hsc, hst, hy1, hd1, hy2, hd2⟩ := h
  have e1 : pre ++ "$A/".toList ++ k.name ++ post = (pre ++ "$A/".toList ++ k.stem) ++ '_' :: ("SCPSE".toList ++
      ('_' :: five k.y1 k.d1 ++ '_' :: five k.y2 k.d2 ++ ".bsp".toList ++ post)) := by
    simp [Kern.name]
  have i1 := index_after (r := '_' :: five k.y1 k.d1 ++ '_' :: five k.y2 k.d2 ++ ".bsp".toList ++ post) (show "SCPSE".toList ≠ [] by decide)
    (show '_' ∉ "SCPSE".toList by decide) hsc
  rw [← e1] at i1
  have e2 : pre ++ "$A/".toList ++ k.name ++ post = pre ++ ("$A/".toList ++ (k.name ++ post)) := by simp
  have i2 := index_dollar (r := k.name ++ post) hpre
  rw [← e2] at i2
  have hlen : (pre ++ "$A/".toList ++ k.stem).length = pre.length + 10 := by simp [hst]
  rw [hlen] at i1
  have s1 : slice (pre.length + 10 + 1 + 6) (pre.length + 10 + 1 + 11) (pre ++ "$A/".toList ++ k.name ++ post) = five k.y1 k.d1 := by
    rw [show pre ++ "$A/".toList ++ k.name ++ post = (pre ++ "$A/".toList ++ k.stem ++ "_SCPSE_".toList) ++ (five k.y1 k.d1 ++ ('_' :: five k.y2 k.d2 ++ ".bsp".toList ++ post)) by
      simp [Kern.name], slice, List.drop_left' (by simp [hst])]
    exact List.take_left' (by simp [five])
  have s2 : slice (pre.length + 10 + 1 + 12) (pre.length + 10 + 1 + 17) (pre ++ "$A/".toList ++ k.name ++ post) = five k.y2 k.d2 := by
    rw [show pre ++ "$A/".toList ++ k.name ++ post = (pre ++ "$A/".toList ++ k.stem ++ "_SCPSE_".toList ++ five k.y1 k.d1 ++ ['_']) ++
      (five k.y2 k.d2 ++ (".bsp".toList ++ post)) by simp [Kern.name], slice, List.drop_left' (by simp [hst, five])]
    exact List.take_left' (by simp [five])
  have s3 : slice (pre.length + 3) (pre.length + 32) (pre ++ "$A/".toList ++ k.name ++ post) = k.name := by
    rw [show pre ++ "$A/".toList ++ k.name ++ post = (pre ++ "$A/".toList) ++ (k.name ++ post) by simp, slice, List.drop_left' (by simp)]
    exact List.take_left' (by simp [Kern.name, five, hst])
  constructor
  · intro hc
    have hc := (covers_iff hd1 hd2 hd).mpr hc
    simp only [kernelOf, i1, i2, s1, s2, s3, five_int hy1 hd1, five_int hy2 hd2, bind, Except.bind, pure, Except.pure, if_pos hc]
  · intro hc
    have hc := fun h => hc ((covers_iff hd1 hd2 hd).mp h)
    simp only [kernelOf, i1, s1, s2, five_int hy1 hd1, five_int hy2 hd2, bind, Except.bind, pure, Except.pure, if_neg hc]

theorem day_of {p : List Char} {y d : Nat} (h : Dated p y d) (lines : List (List Char)) :
    pickKernel lines p = .ok (dir ++ (lines.findSome? (kernelOf (1000 * y + d))).getD "NO KERNEL FOUND".toList) := by
  obtain ⟨a, c, rest, rfl, hc, ha, hy, hd⟩ := h
  have e : a ++ c :: "_RSS_20".toList ++ [ch (y / 10), ch (y % 10), '_', ch (d / 100), ch (d / 10 % 10), ch (d % 10)] ++ rest =
      a ++ c :: ("_RSS_".toList ++ (['2', '0', ch (y / 10), ch (y % 10), '_', ch (d / 100), ch (d / 10 % 10), ch (d % 10)] ++ rest)) := by simp
  rw [pickKernel, e, index_after (by decide) hc ha]
  have e2 : (a ++ c :: ("_RSS_".toList ++ (['2', '0', ch (y / 10), ch (y % 10), '_', ch (d / 100), ch (d / 10 % 10), ch (d % 10)] ++ rest))).drop
      (a.length + 1 + 5) = ['2', '0', ch (y / 10), ch (y % 10), '_', ch (d / 100), ch (d / 10 % 10), ch (d % 10)] ++ rest := by
    rw [show a ++ c :: ("_RSS_".toList ++ (['2', '0', ch (y / 10), ch (y % 10), '_', ch (d / 100), ch (d / 10 % 10), ch (d % 10)] ++ rest)) =
      (a ++ c :: "_RSS_".toList) ++ (['2', '0', ch (y / 10), ch (y % 10), '_', ch (d / 100), ch (d / 10 % 10), ch (d % 10)] ++ rest) by simp]
    exact List.drop_left' (by simp)
  have e3 : slice 2 4 (['2', '0', ch (y / 10), ch (y % 10), '_', ch (d / 100), ch (d / 10 % 10), ch (d % 10)] ++ rest) ++
      slice 5 8 (['2', '0', ch (y / 10), ch (y % 10), '_', ch (d / 100), ch (d / 10 % 10), ch (d % 10)] ++ rest) = five y d := by simp [slice, five]
  simp only [bind, Except.bind, e2, e3, five_int hy hd, pure, Except.pure]
  rfl

/-- The kernel chosen is the first of the list that has the day of the event, also across the turn of a year. -/
theorem C145_kernel {lines : List (List Char)} {os : List (Option Kern)} (h : List.Forall₂ Line lines os) {p : List Char} {y d : Nat} (hp : Dated p y d)
    {a b : List (Option Kern)} {k : Kern} (e : os = a ++ some k :: b) (hk : k.Covers y d) (ha : ∀ k' , some k' ∈ a → ¬ k'.Covers y d) :
    pickKernel lines p = .ok (dir ++ k.name) := by
  rw [day_of hp]
  have hd : d < 1000 := by obtain ⟨_, _, _, _, _, _, _, hd⟩ := hp; exact hd
  have : lines.findSome? (kernelOf (1000 * y + d)) = some k.name := by
    subst e
    induction a generalizing lines with
    | nil =>
      obtain ⟨l, ls, h1, h2, rfl⟩ := List.forall₂_cons_right_iff.mp h
      rw [List.findSome?_cons, (kernelOf_line h1 hd).1 hk]
    | cons o a ih =>
      obtain ⟨l, ls, h1, h2, rfl⟩ := List.forall₂_cons_right_iff.mp h
      have hn : kernelOf (1000 * y + d) l = none := by
        cases o with
        | none => exact kernelOf_other _ h1
        | some k' => exact (kernelOf_line h1 hd).2 (ha k' List.mem_cons_self)
      rw [List.findSome?_cons, hn]
      exact ih (fun k' hk' => ha k' (List.mem_cons_of_mem _ hk')) h2
  rw [this]
  rfl

/-- Without a kernel for the day the name of a file that does not exist is returned, and no exception raised. -/
theorem C145_none_false {lines : List (List Char)} {os : List (Option Kern)} (h : List.Forall₂ Line lines os) {p : List Char} {y d : Nat} (hp : Dated p y d)
    (ha : ∀ k', some k' ∈ os → ¬ k'.Covers y d) : pickKernel lines p = .ok "naif/CASSINI/kernels/spk/NO KERNEL FOUND".toList := by
  rw [day_of hp]
  have hd : d < 1000 := by obtain ⟨_, _, _, _, _, _, _, hd⟩ := hp; exact hd
  have : lines.findSome? (kernelOf (1000 * y + d)) = none := by
    induction h with
    | nil => rfl
    | @cons l o ls os h1 h2 ih =>
      have hn : kernelOf (1000 * y + d) l = none := by
        cases o with
        | none => exact kernelOf_other _ h1
        | some k' => exact (kernelOf_line h1 hd).2 (ha k' List.mem_cons_self)
      rw [List.findSome?_cons, hn]
      exact ih fun k' hk' => ha k' (List.mem_cons_of_mem _ hk')
  rw [this]
  rfl

/-- Lines of `tables/e2e_kernels.ker`. -/
def demoKernels : List (List Char) := ["PATH_SYMBOLS 	= ('A', 'B', 'C')".toList, "KERNELS_TO_LOAD = (		'$A/050606R_SCPSE_05114_05132.bsp' ".toList,
  "						'$A/050623R_SCPSE_05132_05150.bsp'".toList, "						'$A/100127R_SCPSE_09355_10003.bsp'".toList]

/-- What they name. -/
def demoKerns : List (Option Kern) := [none, some ⟨"050606R".toList, 5, 114, 5, 132⟩, some ⟨"050623R".toList, 5, 132, 5, 150⟩,
  some ⟨"100127R".toList, 9, 355, 10, 3⟩]

theorem demo_lines : List.Forall₂ Line demoKernels demoKerns := by
  refine .cons (by unfold Line; decide +kernel) (.cons ⟨"KERNELS_TO_LOAD = (		'".toList, "' ".toList, by decide +kernel⟩
    (.cons ⟨"						'".toList, "'".toList, by decide +kernel⟩ (.cons ⟨"						'".toList, "'".toList, by decide +kernel⟩ .nil)))

example : Dated "CORSS_8001/data/Rev123/Rev123I/Rev123I_RSS_2009_359_X43_I/RSS_2009_359_X43_I_TAU_01KM.TAB".toList 9 359 :=
  ⟨"CORSS_8001/data/Rev123/Rev123I/Rev123".toList, 'I', "_X43_I/RSS_2009_359_X43_I_TAU_01KM.TAB".toList, by decide +kernel⟩

example : pickKernel demoKernels "CORSS_8001/data/Rev123/Rev123I/Rev123I_RSS_2009_359_X43_I/RSS_2009_359_X43_I_TAU_01KM.TAB".toList =
    .ok "naif/CASSINI/kernels/spk/100127R_SCPSE_09355_10003.bsp".toList := by decide +kernel

example : (⟨"100127R".toList, 9, 355, 10, 3⟩ : Kern).Covers 9 359 ∧ ¬ (⟨"050606R".toList, 5, 114, 5, 132⟩ : Kern).Covers 9 359 := by
  unfold Kern.Covers; decide

/-- On the day on which one kernel ends and the next begins the earlier one is chosen for the whole day. -/
theorem C145_shared_false : (⟨"050606R".toList, 5, 114, 5, 132⟩ : Kern).Covers 5 132 ∧ (⟨"050623R".toList, 5, 132, 5, 150⟩ : Kern).Covers 5 132 ∧
    ∀ p, Dated p 5 132 → pickKernel demoKernels p = .ok (dir ++ (⟨"050606R".toList, 5, 114, 5, 132⟩ : Kern).name) := by
  refine ⟨by unfold Kern.Covers; decide, by unfold Kern.Covers; decide, fun p hp => ?_⟩
  refine C145_kernel demo_lines hp (a := [none]) (b := _) rfl (by unfold Kern.Covers; decide) ?_
  intro k' hk'
  cases List.mem_singleton.mp hk'

/-! ### From a TAU file -/

theorem splitOn_ne (c : Char) : ∀ s : List Char, splitOn c s ≠ []
  | [] => by simp [splitOn]
  | x :: xs => by
    unfold splitOn
    split
    · simp
    · split <;> simp

theorem splitOn_append {c : Char} {b : List Char} : ∀ a : List Char, splitOn c (a ++ c :: b) = splitOn c a ++ splitOn c b
  | [] => by simp [splitOn]
  | x :: xs => by
    rw [List.cons_append, splitOn, splitOn_append xs, splitOn]
    split
    · rfl
    · cases h : splitOn c xs with
      | nil => exact absurd h (splitOn_ne c xs)
      | cons y ys => rfl

namespace Spec

/-- The path of a TAU file: below the directories of the revolution, of the direction and of the event, which ends with the direction. -/
structure TauPath (p rev year doy st : List Char) (b d : Char) : Prop where
  four : year.length = 4
  three : doy.length = 3
  two : st.length = 2
  direction : d = 'I' ∨ d = 'E'
  form : ∃ pre x y rest, p = pre ++ '/' :: ("Rev".toList ++ rev ++ '/' :: (x ++ '/' :: (y ++ [d] ++ '/' :: ("RSS_".toList ++ year ++ '_' :: doy ++ '_' :: b :: st ++ rest)))) ∧
    '/' ∉ rev ∧ '/' ∉ x ∧ '/' ∉ y ∧ '/' ∉ "RSS_".toList ++ year ++ '_' :: doy ++ '_' :: b :: st ++ rest

/-- What is known from it. -/
def known (rev year doy st : List Char) (b d : Char) : Info :=
  ⟨"\"UNKNOWN\"".toList, ['"', b, '"'], year, doy, st, none, "\"BOTH\"".toList, if d = 'E' then "\"EGRESS\"".toList else "\"INGRESS\"".toList, rev, "\"Y\"".toList⟩

end Spec

theorem fromEnd_append {F G : List (List Char)} {k : Nat} (h : k ≤ G.length) : fromEnd k (F ++ G) = fromEnd k G := by
  unfold fromEnd
  rw [if_pos (by simp; omega), if_pos h]
  congr 1
  simp only [List.getD_eq_getElem?_getD, List.length_append]
  rw [List.getElem?_append_right (by omega)]
  congr 2
  omega

theorem base_parts {year doy st rest : List Char} {b : Char} (h4 : year.length = 4) (h3 : doy.length = 3) (h2 : st.length = 2) :
    item 13 ("RSS_".toList ++ year ++ '_' :: doy ++ '_' :: b :: st ++ rest) = .ok b ∧ slice 4 8 ("RSS_".toList ++ year ++ '_' :: doy ++ '_' :: b :: st ++ rest) = year ∧
      slice 9 12 ("RSS_".toList ++ year ++ '_' :: doy ++ '_' :: b :: st ++ rest) = doy ∧
      slice 14 16 ("RSS_".toList ++ year ++ '_' :: doy ++ '_' :: b :: st ++ rest) = st := by
  match year, h4, doy, h3, st, h2 with
  | [y1, y2, y3, y4], _, [d1, d2, d3], _, [s1, s2], _ => simp [item, slice]

theorem info_of {p B f R rev year doy st : List Char} {b d : Char} (hb : basename p = B) (hi : index "RSS_".toList B = .ok 0) (p1 : item 13 B = .ok b)
    (f2 : fromEnd 2 (splitOn '/' p) = .ok f) (f4 : fromEnd 4 (splitOn '/' p) = .ok R) (hl : lastChar f = .ok d) (hok : ¬ (d ≠ 'I' ∧ d ≠ 'E'))
    (p2 : slice 4 8 B = year) (p3 : slice 9 12 B = doy) (p4 : slice 14 16 B = st) (hR : R.drop 3 = rev) :
    revInfoFromTau p = .ok (known rev year doy st b d) := by
  subst p2 p3 p4 hR
  unfold revInfoFromTau known
  simp only [hb, hi, bind, Except.bind, Nat.zero_add, p1, f2, f4, hl, pure, Except.pure]
  rw [if_neg hok]

/-- Revolution, band, date, station and direction are those of the path. -/
theorem C145_info {p rev year doy st : List Char} {b d : Char} (h : TauPath p rev year doy st b d) : revInfoFromTau p = .ok (known rev year doy st b d) := by
  obtain ⟨h4, h3, h2, hdir, pre, x, y, rest, rfl, c1, c2, c3, c4⟩ := h
  have hd : d ≠ '/' := by rcases hdir with rfl | rfl <;> decide
  have hy : '/' ∉ y ++ [d] := by
    simp only [List.mem_append, List.mem_singleton, not_or]
    exact ⟨c3, fun e => hd e.symm⟩
  have hr : '/' ∉ "Rev".toList ++ rev := by
    simp only [List.mem_append, not_or]
    exact ⟨by decide, c1⟩
  have hparts := base_parts (b := b) (rest := rest) h4 h3 h2
  have i0 : index "RSS_".toList ("RSS_".toList ++ year ++ '_' :: doy ++ '_' :: b :: st ++ rest) = .ok 0 := by
    apply index_at (by decide)
    · rw [List.drop_zero, List.append_assoc, List.append_assoc, List.append_assoc]
      exact List.prefix_append _ _
    · intro j hj
      omega
  revert c4 hparts i0
  generalize "RSS_".toList ++ year ++ '_' :: doy ++ '_' :: b :: st ++ rest = B
  intro c4 hparts i0
  have hs : splitOn '/' (pre ++ '/' :: ("Rev".toList ++ rev ++ '/' :: (x ++ '/' :: (y ++ [d] ++ '/' :: B)))) =
      splitOn '/' pre ++ ["Rev".toList ++ rev, x, y ++ [d], B] := by
    rw [splitOn_append, splitOn_append, splitOn_append, splitOn_append, splitOn_none hr, splitOn_none c2, splitOn_none hy, splitOn_none c4]
    simp
  have hb : basename (pre ++ '/' :: ("Rev".toList ++ rev ++ '/' :: (x ++ '/' :: (y ++ [d] ++ '/' :: B)))) = B := by
    rw [show pre ++ '/' :: ("Rev".toList ++ rev ++ '/' :: (x ++ '/' :: (y ++ [d] ++ '/' :: B))) =
      (pre ++ '/' :: ("Rev".toList ++ rev ++ '/' :: (x ++ '/' :: (y ++ [d])))) ++ '/' :: B by simp]
    exact basename_append c4
  have f2 : fromEnd 2 (splitOn '/' pre ++ ["Rev".toList ++ rev, x, y ++ [d], B]) = .ok (y ++ [d]) := by
    rw [fromEnd_append (by simp)]
    rfl
  have f4 : fromEnd 4 (splitOn '/' pre ++ ["Rev".toList ++ rev, x, y ++ [d], B]) = .ok ("Rev".toList ++ rev) := by
    rw [fromEnd_append (by simp)]
    rfl
  have hlast : lastChar (y ++ [d]) = .ok d := by simp [lastChar]
  obtain ⟨p1, p2, p3, p4⟩ := hparts
  have hok : ¬ (d ≠ 'I' ∧ d ≠ 'E') := by rintro ⟨e1, e2⟩; rcases hdir with h | h <;> contradiction
  have hdrop : ("Rev".toList ++ rev).drop 3 = rev := by simp
  exact info_of hb i0 p1 ((congrArg (fromEnd 2) hs).trans f2) ((congrArg (fromEnd 4) hs).trans f4) hlast hok p2 p3 p4 hdrop

/-- The name of the event. -/
theorem C145_event {p rev year doy st : List Char} {b d : Char} (h : TauPath p rev year doy st b d) :
    (revInfoFromTau p >>= eventName) = .ok ("RSS_".toList ++ rev ++ d :: '_' :: b :: st) := by
  rw [C145_info h]
  rcases h.direction with rfl | rfl <;> rfl

theorem path123 : TauPath "out/Rev123/Rev123I/Rev123I_RSS_2009_359_X43_I/RSS_2009_359_X43_I_TAU_01000M_20260130_0001.TAB".toList "123".toList "2009".toList "359".toList
    "43".toList 'X' 'I' :=
  ⟨rfl, rfl, rfl, .inl rfl, "out".toList, "Rev123I".toList, "Rev123I_RSS_2009_359_X43_".toList, "_I_TAU_01000M_20260130_0001.TAB".toList, by decide +kernel⟩

example : (revInfoFromTau "out/Rev123/Rev123I/Rev123I_RSS_2009_359_X43_I/RSS_2009_359_X43_I_TAU_01000M_20260130_0001.TAB".toList >>= eventName) =
    .ok "RSS_123I_X43".toList := by decide +kernel

/-- With the station as the reader writes it, `DSS-43`, the name of the event has it in full. -/
theorem C145_event_false : eventName { known "123".toList "2009".toList "359".toList "43".toList 'X' 'I' with dsn := "DSS-43".toList } =
    .ok "RSS_123I_XDSS-43".toList := by decide

/-- With the station as it is known from a TAU file no file of the archive is found, whatever the table, when no line holds the band next to the direction. -/
theorem C145_archive_false {table : List (List Char)} {data : List Char} {rev year doy st : List Char} {b d : Char} (h2 : st.length = 2) (hd : d = 'I' ∨ d = 'E')
    (hb : ∀ l ∈ table, ¬ [b, '_', d] <:+: l) : corssTau table data (known rev year doy st b d) = .ok none := by
  have hp : item 1 (known rev year doy st b d).profDir = .ok d := by rcases hd with rfl | rfl <;> rfl
  have hdrop : (known rev year doy st b d).dsn.drop 4 = [] := by
    show st.drop 4 = []
    exact List.drop_eq_nil_of_le (by omega)
  have hst : standIn ("Rev".toList ++ rev) [b] = [b] := by
    rw [C144_stations, if_neg]
    rintro (⟨-, h | h⟩ | ⟨-, h⟩) <;> simp at h
  have hbd : item 1 (known rev year doy st b d).band = .ok b := rfl
  have hrv : (known rev year doy st b d).revNum = rev := rfl
  have hf : table.filter (fits ("Rev".toList ++ rev) ([b] ++ ['_', d])) = [] := by
    rw [List.filter_eq_nil_iff]
    intro l hl hfit
    exact hb l hl ((fits_iff _ _ _).mp hfit).2.2
  simp only [corssTau, hp, hdrop, hbd, hrv, bind, Except.bind, corssFiles, hst, hf, pure, Except.pure]

example : ∀ l ∈ demo.corss, ¬ ['X', '_', 'I'] <:+: l := by decide +kernel

/-- When several lines of the table fit, the kernel is that of the first of them.  (Full claim: the kernel is that of the event; see
`C145_single_false` and `C145_other_false`.) -/
theorem C145_load_partial {corss kernels l : List (List Char)} {p q q' rev year doy st : List Char} {b d : Char} (h : TauPath p rev year doy st b d)
    (hl : Lines corss rev (standIn rev st) d (q :: q' :: l)) : kernelForTau corss kernels p = pickKernel kernels q := by
  have hp : item 1 (known rev year doy st b d).profDir = .ok d := by rcases h.direction with rfl | rfl <;> rfl
  have e1 : (known rev year doy st b d).revNum = rev := rfl
  have e2 : (known rev year doy st b d).dsn = st := rfl
  simp only [kernelForTau, C145_info h, bind, Except.bind, hp, e1, e2, corss_many hl, firstOf]

/-- When one line fits, its first character is taken for the path: a `ValueError`. -/
theorem C145_single_false {corss kernels : List (List Char)} {p q rev year doy st : List Char} {b d : Char} (h : TauPath p rev year doy st b d)
    (hl : Lines corss rev (standIn rev st) d [q]) : kernelForTau corss kernels p = .error .value := by
  have hp : item 1 (known rev year doy st b d).profDir = .ok d := by rcases h.direction with rfl | rfl <;> rfl
  have e1 : (known rev year doy st b d).revNum = rev := rfl
  have e2 : (known rev year doy st b d).dsn = st := rfl
  have hq : q ≠ [] := by
    rintro rfl
    have := (hl.2.1 [] List.mem_cons_self).2.2
    have := List.infix_nil.mp this
    simp at this
  obtain ⟨c, cs, rfl⟩ := List.exists_cons_of_ne_nil hq
  have hi : index "_RSS_".toList [c] = .error .value := by
    apply index_error (by decide)
    intro hi
    have := hi.length_le
    simp at this
  simp only [kernelForTau, C145_info h, bind, Except.bind, hp, e1, e2, corss_one hl, firstOf, pickKernel, hi]

/-- The lines of `tables/CORSS_8001_TAU_filepaths_all.txt` with station 43 on ingress for two revolutions. -/
def demoCorss : List (List Char) := ["CORSS_8001/data/Rev007/Rev007I/Rev007I_RSS_2005_123_X43_I/RSS_2005_123_X43_I_TAU_01KM.TAB".toList,
  "CORSS_8001/data/Rev123/Rev123I/Rev123I_RSS_2009_359_X43_I/RSS_2009_359_X43_I_TAU_01KM.TAB".toList]

/-- Revolution 123 of the year 2009 gets the kernel of day 123 of 2005, because the number stands in the path of another event. -/
theorem C145_other_false :
    kernelForTau demoCorss demoKernels "out/Rev123/Rev123I/Rev123I_RSS_2009_359_X43_I/RSS_2009_359_X43_I_TAU_01000M_20260130_0001.TAB".toList =
      .ok "naif/CASSINI/kernels/spk/050606R_SCPSE_05114_05132.bsp".toList ∧ ¬ (⟨"050606R".toList, 5, 114, 5, 132⟩ : Kern).Covers 9 359 ∧
    pickKernel demoKernels "CORSS_8001/data/Rev123/Rev123I/Rev123I_RSS_2009_359_X43_I/RSS_2009_359_X43_I_TAU_01KM.TAB".toList =
      .ok "naif/CASSINI/kernels/spk/100127R_SCPSE_09355_10003.bsp".toList ∧ (⟨"100127R".toList, 9, 355, 10, 3⟩ : Kern).Covers 9 359 := by
  refine ⟨by decide +kernel, by unfold Kern.Covers; decide, by decide +kernel, by unfold Kern.Covers; decide⟩

example : kernelForTau (demoCorss.drop 1) demoKernels "out/Rev123/Rev123I/Rev123I_RSS_2009_359_X43_I/RSS_2009_359_X43_I_TAU_01000M_20260130_0001.TAB".toList =
    .error .value := by decide +kernel

end Verif.Pick
