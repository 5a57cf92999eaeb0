import Verif.Model.UranusOut
import Verif.Props.C114

/-!
# C141: output files of the Uranus pipeline do not replace older ones
-/
namespace Verif.UOut
open Verif.Rsr Verif.Out

/-- A visible file of the type and the day, and its number. -/
def Spec.Of (filtyp day x : List Char) : Prop := x.head? ≠ some '.' ∧ filtyp.map upperC <:+: x ∧ beforeLast x = .ok day

/-- The number in the name of a file. -/
def Spec.number (x : List Char) : Nat := value ((lastPart x).take 4)

/-- The directory lists the files of the type and the day with growing numbers. -/
def Spec.Listed (filtyp day : List Char) (files : List (List Char)) : Prop :=
  files.Pairwise fun x y => Spec.Of filtyp day x → Spec.Of filtyp day y → Spec.number x ≤ Spec.number y

/-- What is selected, in order. -/
theorem sqn0_eq {filtyp day : List Char} : ∀ {l r : List (List Char)}, sqn0 filtyp day l = .ok r →
    r = (l.filter fun x => decide (filtyp.map upperC <:+: x ∧ beforeLast x = .ok day)).map fun x => day ++ (lastPart x).take 4
  | [], r, h => by
    cases h
    rfl
  | x :: xs, r, h => by
    rw [sqn0] at h
    split at h
    · rename_i hi
      rcases hb : beforeLast x with e | d
      · simp only [hb, bind, Except.bind] at h; cases h
      rcases hr : sqn0 filtyp day xs with e | q
      · simp only [hb, hr, bind, Except.bind] at h; cases h
      simp only [hb, hr, bind, Except.bind, pure, Except.pure] at h
      injection h with h
      have ih := sqn0_eq hr
      by_cases hd : d = day
      · subst hd
        rw [if_pos rfl] at h
        rw [List.filter_cons, if_pos (decide_eq_true ⟨hi, hb⟩), List.map_cons, ← ih, ← h]
      · rw [if_neg hd] at h
        rw [List.filter_cons, if_neg, ← ih, ← h]
        rw [decide_eq_true_eq, hb]
        rintro ⟨-, k⟩
        injection k with k
        exact hd k
    · rename_i hi
      rw [List.filter_cons, if_neg (by rw [decide_eq_true_eq]; exact fun k => hi k.1)]
      exact sqn0_eq h

/-- What the sequence number is: `0001` if there is no file of the type and the day, else the number of the last one plus one. -/
theorem seqNum_cases {filtyp day : List Char} {files : List (List Char)} {s : List Char} (hv : 10 ^ 7 ≤ value day)
    (hs : seqNum filtyp day (some files) = .ok s) :
    ((∀ x ∈ files, ¬ Spec.Of filtyp day x) ∧ s = "0001".toList) ∨
    ∃ a x b, files = a ++ x :: b ∧ Spec.Of filtyp day x ∧ (∀ y ∈ b, ¬ Spec.Of filtyp day y) ∧
      (∀ y ∈ files, Spec.Of filtyp day y → ((lastPart y).take 4).all isDigit) ∧ s.length = 4 ∧ s.all isDigit ∧
      value s = (value (day ++ (lastPart x).take 4) + 1) % 10000 := by
  have fil : ∀ l : List (List Char), (l.filter fun x => decide (x.head? ≠ some '.')).filter
      (fun x => decide (filtyp.map upperC <:+: x ∧ beforeLast x = .ok day)) =
      l.filter fun x => decide (x.head? ≠ some '.' ∧ filtyp.map upperC <:+: x ∧ beforeLast x = .ok day) := by
    intro l
    rw [List.filter_filter]
    congr 1
    funext x
    rw [Bool.eq_iff_iff, Bool.and_eq_true, decide_eq_true_eq, decide_eq_true_eq, decide_eq_true_eq]
    tauto
  simp only [seqNum] at hs
  by_cases hn : files.filter (fun x => decide (x.head? ≠ some '.')) = []
  · rw [if_pos hn] at hs
    injection hs with hs
    refine Or.inl ⟨fun x hx h => ?_, hs.symm⟩
    have : x ∈ files.filter fun x => decide (x.head? ≠ some '.') := List.mem_filter.mpr ⟨hx, decide_eq_true h.1⟩
    rw [hn] at this
    cases this
  rw [if_neg hn] at hs
  rcases hq : sqn0 filtyp day (files.filter fun x => decide (x.head? ≠ some '.')) with e | q
  · simp only [hq, bind, Except.bind] at hs; cases hs
  simp only [hq, bind, Except.bind] at hs
  have eq := sqn0_eq hq
  rw [fil] at eq
  by_cases hqn : q = []
  · rw [if_pos hqn] at hs
    injection hs with hs
    refine Or.inl ⟨fun x hx h => ?_, hs.symm⟩
    rw [hqn] at eq
    have := List.map_eq_nil_iff.mp eq.symm
    rw [List.filter_eq_nil_iff] at this
    exact this x hx (decide_eq_true h)
  right
  rw [if_neg hqn] at hs
  rcases hm : q.mapM pyIntDigits with e | ns
  · simp only [hm] at hs; cases hs
  simp only [hm, pure, Except.pure] at hs
  injection hs with hs
  obtain ⟨n1, n2⟩ := ints_ok hm
  -- the last one
  have hne : (files.filter fun x => decide (x.head? ≠ some '.' ∧ filtyp.map upperC <:+: x ∧ beforeLast x = .ok day)) ≠ [] := by
    intro h
    rw [h] at eq
    exact hqn eq
  have hlast := List.getLast_mem hne
  set x := List.getLast _ hne with hx
  have split : ∃ a b, files = a ++ x :: b ∧ ∀ y ∈ b, ¬ Spec.Of filtyp day y := by
    have gen : ∀ (l : List (List Char)) (p : List Char → Bool) (h : l.filter p ≠ []), ∃ a b, l = a ++ (l.filter p).getLast h :: b ∧
        ∀ y ∈ b, ¬ p y = true := by
      intro l p
      induction l with
      | nil => intro h; exact absurd rfl h
      | cons z l ih =>
        intro h
        by_cases hl : l.filter p = []
        · by_cases hz : p z = true
          · refine ⟨[], l, ?_, List.filter_eq_nil_iff.mp hl⟩
            have : (z :: l).filter p = [z] := by rw [List.filter_cons, if_pos hz, hl]
            simp only [this, List.getLast_singleton, List.nil_append]
          · exact absurd (by rw [List.filter_cons, if_neg hz, hl]) h
        · obtain ⟨a, b, e, hb⟩ := ih hl
          refine ⟨z :: a, b, ?_, hb⟩
          have : ((z :: l).filter p).getLast h = (l.filter p).getLast hl := by
            by_cases hz : p z = true
            · simp only [List.filter_cons, if_pos hz]
              rw [List.getLast_cons hl]
            · simp only [List.filter_cons, if_neg hz]
          rw [this, List.cons_append, ← e]
    obtain ⟨a, b, e, hb⟩ := gen files _ hne
    exact ⟨a, b, e, fun y hy h => hb y hy (decide_eq_true h)⟩
  obtain ⟨a, b, e, hb⟩ := split
  have hof : Spec.Of filtyp day x := by
    have := (List.mem_filter.mp hlast).2
    rwa [decide_eq_true_eq] at this
  have hval : ns.getLastD 0 = value (day ++ (lastPart x).take 4) := by
    rw [n1, eq, List.map_map, List.getLastD_eq_getLast?, List.getLast?_map, List.getLast?_eq_some_getLast hne]
    rfl
  have hge : 1000 ≤ ns.getLastD 0 + 1 := by
    rw [hval, value_append]
    have p1 : 1 ≤ 10 ^ ((lastPart x).take 4).length := Nat.one_le_pow _ _ (by decide)
    have := Nat.mul_le_mul_left (value day) p1
    omega
  obtain ⟨v1, v2, v3⟩ := value_lastFour hge
  rw [hs] at v1 v2 v3
  refine ⟨a, x, b, e, hof, hb, ?_, v2, v3, by rw [v1, hval]⟩
  intro y hy ho
  have : day ++ (lastPart y).take 4 ∈ q := by
    rw [eq]
    exact List.mem_map.mpr ⟨y, List.mem_filter.mpr ⟨hy, decide_eq_true ho⟩, rfl⟩
  have := n2 _ this
  rw [List.all_append, Bool.and_eq_true] at this
  exact this.2

theorem fileStr_head (band dsn dir ring : List Char) : (fileStr band dsn dir ring).head? ≠ some '.' ∧ fileStr band dsn dir ring ≠ [] := by
  constructor
  · intro h
    have : (fileStr band dsn dir ring).head? = some 'V' := rfl
    rw [this] at h
    exact absurd h (by decide)
  · intro h
    have : (fileStr band dsn dir ring).head? = some 'V' := rfl
    rw [h] at this
    cases this

/-- A name of the form that the pipeline writes. -/
theorem of_name {p filtyp day s ext : List Char} (hp : p.head? ≠ some '.') (hp0 : p ≠ []) (hday : day.all isDigit) (hs : s.all isDigit) (he : '_' ∉ ext) :
    Spec.Of filtyp day (p ++ '_' :: filtyp.map upperC ++ '_' :: day ++ '_' :: (s ++ ext)) ∧
    lastPart (p ++ '_' :: filtyp.map upperC ++ '_' :: day ++ '_' :: (s ++ ext)) = s ++ ext := by
  have hue : '_' ∉ s ++ ext := by simp [nodig hs, he]
  refine ⟨⟨?_, ⟨p ++ ['_'], '_' :: day ++ '_' :: (s ++ ext), by simp⟩, before_of (nodig hday) hue⟩, last_of hue⟩
  obtain ⟨c, p, rfl⟩ := List.exists_cons_of_ne_nil hp0
  simpa using hp

/-- The file is new if the directory lists the files with growing numbers: what is written (title and an ending
without `_`) is not in the directory, unless the number has become 0000. -/
theorem fresh_of {filestr filtyp day : List Char} {files : List (List Char)} {t s : List Char} (hp : filestr.head? ≠ some '.')
    (hp0 : filestr ≠ []) (hday : day.all isDigit) (hv : 10 ^ 7 ≤ value day) (hs : seqNum filtyp day (some files) = .ok s)
    (h0 : s ≠ "0000".toList) (ht : title filestr filtyp day (some files) = .ok t) (h4 : ∀ x ∈ files, Spec.Of filtyp day x → 4 ≤ (lastPart x).length)
    (hl : Spec.Listed filtyp day files) (ext : List Char) (he : '_' ∉ ext) : t ++ ext ∉ files := by
  have et : t = filestr ++ '_' :: filtyp.map upperC ++ '_' :: day ++ '_' :: s := by
    unfold title at ht
    simp only [hs, bind, Except.bind, pure, Except.pure] at ht
    injection ht with ht
    exact ht.symm
  have ew : t ++ ext = filestr ++ '_' :: filtyp.map upperC ++ '_' :: day ++ '_' :: (s ++ ext) := by rw [et]; simp
  intro hmem
  rcases seqNum_cases hv hs with ⟨hno, rfl⟩ | ⟨a, x, b, e, hof, hb, hdig, s4, sd, sv⟩
  · refine hno _ hmem ?_
    rw [ew]
    exact (of_name hp hp0 hday (by decide) he).1
  · obtain ⟨o1, o2⟩ := of_name (filtyp := filtyp) (s := s) hp hp0 hday sd he
    rw [← ew] at o1 o2
    have num : Spec.number (t ++ ext) = value s := by
      rw [Spec.number, o2, List.take_append_of_le_length (by omega), List.take_of_length_le (by omega)]
    have hxm : x ∈ files := by rw [e]; simp
    have x4 : ((lastPart x).take 4).length = 4 := by rw [List.length_take]; have := h4 x hxm hof; omega
    have xlt := value_lt (hdig x hxm hof)
    rw [x4] at xlt
    have le : Spec.number (t ++ ext) ≤ Spec.number x := by
      unfold Spec.Listed at hl
      rw [e, List.pairwise_append] at hl
      rw [e] at hmem
      rcases List.mem_append.mp hmem with k | k
      · exact hl.2.2 _ k x List.mem_cons_self o1 hof
      · rcases List.mem_cons.mp k with k | k
        · rw [k]
        · exact absurd o1 (hb _ k)
    rw [num, Spec.number] at le
    have hz : value s ≠ 0 := fun hz => h0 (zeros_of s4 sd hz)
    rw [value_append, x4] at sv
    omega

/-- **C141** (partial) For every band, station, direction, ring and type: the file is new if the directory lists the files with growing
numbers: what is written (title and an ending without `_`) is not in the directory, unless the number has become 0000.  Missing:
listings in other orders, see `C141_order_false`. -/
theorem C141_fresh_partial {band dsn dir ring filtyp day : List Char} {files : List (List Char)} {t s : List Char} (hday : day.all isDigit)
    (hv : 10 ^ 7 ≤ value day) (hs : seqNum filtyp day (some files) = .ok s) (h0 : s ≠ "0000".toList)
    (ht : title (fileStr band dsn dir ring) filtyp day (some files) = .ok t)
    (h4 : ∀ x ∈ files, Spec.Of filtyp day x → 4 ≤ (lastPart x).length) (hl : Spec.Listed filtyp day files) (ext : List Char)
    (he : '_' ∉ ext) : t ++ ext ∉ files :=
  fresh_of (fileStr_head _ _ _ _).1 (fileStr_head _ _ _ _).2 hday hv hs h0 ht h4 hl ext he

/-- Files of a run on one day. -/
def demoDir : List (List Char) := [".x".toList, "VGR2_X43_E_URING_A_CAL_20240101_0001.TAB".toList, "VGR2_X43_E_URING_A_GEO_20240101_0007.TAB".toList,
  "VGR2_X43_E_URING_A_CAL_20240101_0002.TAB".toList]

theorem demo_of {x : List Char} (hx : x ∈ demoDir) (h : Spec.Of "CAL".toList "20240101".toList x) :
    x = "VGR2_X43_E_URING_A_CAL_20240101_0001.TAB".toList ∨ x = "VGR2_X43_E_URING_A_CAL_20240101_0002.TAB".toList := by
  revert h
  unfold Spec.Of
  revert x
  decide +kernel

example : title "VGR2_X43_E_URING_A".toList "CAL".toList "20240101".toList (some demoDir) = .ok "VGR2_X43_E_URING_A_CAL_20240101_0003".toList ∧
    "VGR2_X43_E_URING_A_CAL_20240101_0003".toList ++ ".TAB".toList ∉ demoDir := by
  refine ⟨by decide +kernel, C141_fresh_partial (band := ['X']) (dsn := "43".toList) (dir := ['E']) (ring := ['A']) (filtyp := "CAL".toList) (day := "20240101".toList)
    (s := "0003".toList) (by decide) (by decide +kernel) (by decide +kernel) (by decide)
    (by decide +kernel) ?_ ?_ ".TAB".toList (by decide)⟩
  · intro x hx h
    rcases demo_of hx h with rfl | rfl <;> decide +kernel
  · unfold Spec.Listed Spec.Of Spec.number
    decide +kernel

/-- `n` as four digits. -/
def four (n : Nat) : List Char := lastFour (decimal (10000 + n))

theorem four_spec {n : Nat} (h : n < 10000) : value (four n) = n ∧ (four n).length = 4 ∧ (four n).all isDigit := by
  obtain ⟨a, b, c⟩ := value_lastFour (n := 10000 + n) (by omega)
  exact ⟨by rw [four, a]; omega, b, c⟩

theorem four_unique : ∀ {s r : List Char}, s.length = r.length → s.all isDigit → r.all isDigit → value s = value r → s = r := by
  intro s
  induction s using List.reverseRecOn with
  | nil => intro r h _ _ _; exact (List.length_eq_zero_iff.mp h.symm).symm
  | append_singleton s c ih =>
    intro r h hs hr hv
    induction r using List.reverseRecOn with
    | nil => simp at h
    | append_singleton r d _ =>
      rw [List.all_append, Bool.and_eq_true] at hs hr
      rw [value_append, value_append] at hv
      simp only [List.length_append, List.length_singleton, Nat.add_right_cancel_iff] at h
      have h1 := hs.2
      have h2 := hr.2
      simp only [List.all_cons, List.all_nil, Bool.and_true, isDigit, Bool.and_eq_true, decide_eq_true_eq] at h1 h2
      simp only [value, List.length_singleton, List.foldl_cons, List.foldl_nil] at hv
      have h3 : s.foldl (fun n c => 10 * n + (c.toNat - 48)) 0 = value s := rfl
      have h4 : r.foldl (fun n c => 10 * n + (c.toNat - 48)) 0 = value r := rfl
      rw [h3, h4] at hv
      have k : c.toNat = d.toNat := by omega
      have kc : c = d := Char.ext (UInt32.toNat_inj.mp k)
      rw [ih h hs.1 hr.1 (by omega), kc]

/-- For every name, type, day, ending and number: if the directory lists the file with number `n + 1` before the one with
number `n`, the next file gets the number `n + 1` and replaces the former. -/
theorem order_of {filestr filtyp day ext : List Char} {n : Nat} (hp : filestr.head? ≠ some '.') (hp0 : filestr ≠ [])
    (hday : day.all isDigit) (hv : 10 ^ 7 ≤ value day) (he : '_' ∉ ext) (hn : n + 1 < 10000) :
    ∃ t, title filestr filtyp day (some
      [filestr ++ '_' :: filtyp.map upperC ++ '_' :: day ++ '_' :: (four (n + 1) ++ ext),
       filestr ++ '_' :: filtyp.map upperC ++ '_' :: day ++ '_' :: (four n ++ ext)]) = .ok t ∧
      t ++ ext = filestr ++ '_' :: filtyp.map upperC ++ '_' :: day ++ '_' :: (four (n + 1) ++ ext) := by
  obtain ⟨a1, a2, a3⟩ := four_spec (n := n + 1) (by omega)
  obtain ⟨b1, b2, b3⟩ := four_spec (n := n) (by omega)
  obtain ⟨⟨o1, o2, o3⟩, o4⟩ := of_name (filtyp := filtyp) (s := four (n + 1)) hp hp0 hday a3 he
  obtain ⟨⟨p1, p2, p3⟩, p4⟩ := of_name (filtyp := filtyp) (s := four n) hp hp0 hday b3 he
  have q1 : (four (n + 1) ++ ext).take 4 = four (n + 1) := by
    rw [List.take_append_of_le_length (by omega), List.take_of_length_le (by omega)]
  have q2 : (four n ++ ext).take 4 = four n := by
    rw [List.take_append_of_le_length (by omega), List.take_of_length_le (by omega)]
  set x := filestr ++ '_' :: filtyp.map upperC ++ '_' :: day ++ '_' :: (four (n + 1) ++ ext) with hx
  set y := filestr ++ '_' :: filtyp.map upperC ++ '_' :: day ++ '_' :: (four n ++ ext) with hy
  have dg : ∀ r : List Char, r.length = 4 → r.all isDigit → pyIntDigits (day ++ r) = .ok (value (day ++ r)) := by
    intro r h4 hd
    rw [pyIntDigits, if_pos]
    refine ⟨?_, by rw [List.all_append, hday, hd]; rfl⟩
    intro k
    have := congrArg List.length k
    rw [List.length_append, h4] at this
    simp at this
  have hge : 1000 ≤ value (day ++ four n) + 1 := by
    rw [value_append, b2]
    omega
  obtain ⟨v1, v2, v3⟩ := value_lastFour hge
  have es : lastFour (decimal (value (day ++ four n) + 1)) = four (n + 1) := by
    apply four_unique (by rw [v2, a2]) v3 a3
    rw [v1, a1, value_append, b1, b2]
    omega
  have fl : [x, y].filter (fun z => decide (z.head? ≠ some '.')) = [x, y] := by
    rw [List.filter_cons, if_pos (decide_eq_true o1), List.filter_cons, if_pos (decide_eq_true p1), List.filter_nil]
  have sq : sqn0 filtyp day [x, y] = .ok [day ++ four (n + 1), day ++ four n] := by
    rw [sqn0, if_pos o2, sqn0, if_pos p2, sqn0]
    simp only [o3, p3, o4, p4, q1, q2, bind, Except.bind, pure, Except.pure, if_true]
  have e : seqNum filtyp day (some [x, y]) = .ok (four (n + 1)) := by
    simp only [seqNum]
    rw [fl, if_neg (by simp), sq]
    simp only [bind, Except.bind]
    rw [if_neg (by simp), List.mapM_cons, dg _ a2 a3, List.mapM_cons, dg _ b2 b3, List.mapM_nil]
    simp only [bind, Except.bind, pure, Except.pure]
    rw [← es]
    rfl
  refine ⟨filestr ++ '_' :: filtyp.map upperC ++ '_' :: day ++ '_' :: four (n + 1), ?_, ?_⟩
  · unfold title
    rw [e]
    rfl
  · rw [hx]
    simp

/-- **C141** (false) For every band, station, direction, ring, type, day, ending and number: if the directory lists the file with number `n + 1` before
the one with number `n`, the next file gets the number `n + 1` and replaces the former. -/
theorem C141_order_false {band dsn dir ring filtyp day ext : List Char} {n : Nat} (hday : day.all isDigit) (hv : 10 ^ 7 ≤ value day)
    (he : '_' ∉ ext) (hn : n + 1 < 10000) :
    ∃ t x y, x = fileStr band dsn dir ring ++ '_' :: filtyp.map upperC ++ '_' :: day ++ '_' :: (four (n + 1) ++ ext) ∧
      y = fileStr band dsn dir ring ++ '_' :: filtyp.map upperC ++ '_' :: day ++ '_' :: (four n ++ ext) ∧
      title (fileStr band dsn dir ring) filtyp day (some [x, y]) = .ok t ∧ t ++ ext = x := by
  obtain ⟨t, h⟩ := order_of (filestr := fileStr band dsn dir ring) (filtyp := filtyp) (n := n) (fileStr_head _ _ _ _).1 (fileStr_head _ _ _ _).2 hday hv he hn
  exact ⟨t, _, _, rfl, rfl, h⟩

example : title "VGR2_X43_E_URING_A".toList "CAL".toList "20240101".toList (some ["VGR2_X43_E_URING_A_CAL_20240101_0002.TAB".toList,
    "VGR2_X43_E_URING_A_CAL_20240101_0001.TAB".toList]) = .ok "VGR2_X43_E_URING_A_CAL_20240101_0002".toList := by decide +kernel

/-- **C141** (false) Even an alphabetical listing does not help for a type whose name begins that of another type: the files of type
`PHASE_FIT_ZOOM` count as files of type `PHASE_FIT`, and the second of these is replaced. -/
theorem C141_prefix_false : ∃ files : List (List Char), files.Pairwise (· < ·) ∧
    ∃ t, title "VGR2_X43_E_URING_A".toList "PHASE_FIT".toList "20240101".toList (some files) = .ok t ∧ t ++ ".PDF".toList ∈ files :=
  ⟨["VGR2_X43_E_URING_A_PHASE_FIT_20240101_0001.PDF".toList, "VGR2_X43_E_URING_A_PHASE_FIT_20240101_0002.PDF".toList,
    "VGR2_X43_E_URING_A_PHASE_FIT_ZOOM_20240101_0001.PDF".toList], by decide +kernel, "VGR2_X43_E_URING_A_PHASE_FIT_20240101_0002".toList,
    by decide +kernel, by decide +kernel⟩

end Verif.UOut
