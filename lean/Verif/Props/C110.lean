import Verif.Model.ErrorCheck

/-!
# C110: the checks of arguments in Python, and the C library
-/
namespace Verif.Chk
open Verif.Rsr

/-- A text of decimal digits and its value. -/
inductive Spec.Decimal : List Char → Nat → Prop
  | one (d : Nat) (h : d < 10) : Decimal [Char.ofNat (48 + d)] d
  | snoc {t : List Char} {n : Nat} (d : Nat) (ht : Decimal t n) (h : d < 10) : Decimal (t ++ [Char.ofNat (48 + d)]) (10 * n + d)

/-- Characters that may occur in a number. -/
def numChar (c : Char) : Bool := isDigit c || decide (c = '_') || decide (c = '+') || decide (c = '-') || isSpacePy c

theorem digitsVal_chars (cs : List Char) : ∀ (n m : Nat), digitsVal n cs = some m → ∀ c ∈ cs, numChar c = true := by
  induction cs using List.twoStepInduction with
  | nil => intro n m _ c hc; cases hc
  | singleton c =>
    intro n m h x hx
    rw [List.mem_singleton.mp hx]
    by_cases hd : isDigit c = true
    · simp [numChar, hd]
    · simp only [digitsVal, hd] at h
      by_cases hu : c = '_' <;> simp [hu] at h
  | cons_cons c d ds ih1 ih2 =>
    intro n m h x hx
    by_cases hd : isDigit c = true
    · rw [digitsVal, if_pos hd] at h
      rcases List.mem_cons.mp hx with rfl | hx
      · simp [numChar, hd]
      · exact ih2 d _ _ h x hx
    · rw [digitsVal, if_neg hd] at h
      by_cases hu : c = '_'
      · rw [if_pos hu] at h
        by_cases hd' : isDigit d = true
        · simp only [hd', if_true] at h
          rcases List.mem_cons.mp hx with rfl | hx
          · simp [numChar, hu]
          · rcases List.mem_cons.mp hx with rfl | hx
            · simp [numChar, hd']
            · exact ih1 _ _ h x hx
        · simp [hd'] at h
      · simp [hu] at h

theorem unsignedVal_chars {cs : List Char} {m : Nat} (h : unsignedVal cs = some m) : ∀ c ∈ cs, numChar c = true := by
  cases cs with
  | nil => intro c hc; cases hc
  | cons c cs =>
    by_cases hd : isDigit c = true
    · rw [unsignedVal, if_pos hd] at h
      intro x hx
      rcases List.mem_cons.mp hx with rfl | hx
      · simp [numChar, hd]
      · exact digitsVal_chars cs _ _ h x hx
    · simp [unsignedVal, hd] at h

theorem trimmed_mem {s : List Char} {c : Char} (h : c ∈ s) (hc : isSpacePy c = false) :
    c ∈ ((s.dropWhile isSpacePy).reverse.dropWhile isSpacePy).reverse := by
  have key : ∀ l : List Char, c ∈ l → c ∈ l.dropWhile isSpacePy := by
    intro l hl
    induction l with
    | nil => exact hl
    | cons a l ih =>
      rw [List.dropWhile_cons]
      split
      · rename_i ha
        rcases List.mem_cons.mp hl with rfl | hl
        · rw [hc] at ha; cases ha
        · exact ih hl
      · exact hl
  rw [List.mem_reverse]
  exact key _ (List.mem_reverse.mpr (key s h))

theorem pyIntText_chars {s : List Char} {n : Int} (h : pyIntText s = some n) : ∀ c ∈ s, numChar c = true := by
  intro c hc
  by_cases hs : isSpacePy c = true
  · simp [numChar, hs]
  · have hm := trimmed_mem hc (by simpa using hs)
    revert h
    unfold pyIntText
    generalize ((s.dropWhile isSpacePy).reverse.dropWhile isSpacePy).reverse = t at hm
    intro h
    split at h
    all_goals
      obtain ⟨m, hm', -⟩ := Option.map_eq_some_iff.mp h
      have := unsignedVal_chars hm'
      first
      | exact this c hm
      | rcases List.mem_cons.mp hm with rfl | hm
        · rfl
        · exact this c hm

/-- A text that contains `fresnel`, with a number after its first seven characters, begins with `fresnel`. -/
theorem fresnel_first {p : List Char} {n : Int} (h : "fresnel".toList <:+: p) (hn : pyIntText (p.drop 7) = some n) :
    p = "fresnel".toList ++ p.drop 7 := by
  obtain ⟨a, b, rfl⟩ := h
  cases a with
  | nil => rfl
  | cons x a =>
    exfalso
    have hl : 'l' ∈ (x :: a ++ "fresnel".toList ++ b).drop 7 := by
      have h7 : (x :: a ++ "fresnel".toList ++ b)[a.length + 7]? = some 'l' := by
        rw [List.append_assoc, List.getElem?_append_right (by simp)]
        rw [show a.length + 7 - (x :: a).length = 6 by simp]
        rfl
      refine List.mem_of_getElem? (i := a.length) ?_
      rw [List.getElem?_drop, Nat.add_comm]; exact h7
    have := pyIntText_chars hn 'l' hl
    revert this
    decide

theorem lowerC_toLower (c : Char) : lowerC c = c.toLower := by
  unfold lowerC
  split
  · rename_i h
    have hc : c = Char.ofNat c.toNat := (Char.ofNat_toNat c).symm
    generalize c.toNat = n at h hc
    subst hc
    obtain ⟨h1, h2⟩ := h
    have : ∀ m < 91, 65 ≤ m → Char.ofNat (m + 32) = (Char.ofNat m).toLower := by decide
    exact this n (by omega) h1
  · rename_i h
    unfold Char.toLower
    rw [dif_neg]
    intro hn
    exact h ⟨hn.1, hn.2⟩

/-- Spaces and quotation marks are removed, other characters made lower case. -/
theorem C110_cleaned (s : List Char) : cleaned s = (s.filter fun c => ! [' ', '\'', '"'].contains c).map Char.toLower := by
  have hf : (fun c : Char => decide (c ≠ ' ' ∧ c ≠ '\'' ∧ c ≠ '"')) = fun c => ! [' ', '\'', '"'].contains c := by
    funext c
    by_cases h1 : c = ' ' <;> by_cases h2 : c = '\'' <;> by_cases h3 : c = '"' <;> simp [h1, h2, h3]
  rw [cleaned, hf]
  exact List.map_congr_left fun c _ => lowerC_toLower c

example : cleaned "\" KB 20'".toList = "kb20".toList := by decide

theorem digitsVal_spec (cs : List Char) : ∀ n m, digitsVal n cs = some m →
    m = (cs.filter (· ≠ '_')).foldl (fun a c => 10 * a + (c.toNat - 48)) n := by
  match cs with
  | [] => intro n m h; cases h; rfl
  | c :: cs =>
    intro n m h
    rw [digitsVal.eq_def] at h
    simp only at h
    split at h
    · rename_i hd
      have hc : c ≠ '_' := by rintro rfl; exact absurd hd (by decide)
      rw [List.filter_cons_of_pos (by simpa using hc)]
      exact digitsVal_spec cs _ _ h
    · split at h
      · rename_i hu
        rw [List.filter_cons_of_neg (by simpa using hu)]
        match cs with
        | [] => cases h
        | d :: ds =>
          simp only at h
          split at h
          · rename_i hd
            have hc : d ≠ '_' := by rintro rfl; exact absurd hd (by decide)
            rw [List.filter_cons_of_pos (by simpa using hc)]
            exact digitsVal_spec ds _ _ h
          · cases h
      · cases h

/-- The number of a text of digits, whose groups may be separated by underscores, is the decimal number without these. -/
theorem C110_number {t : List Char} {n : Int} (ht : ∀ c ∈ t, isDigit c = true ∨ c = '_') (h : pyIntText t = some n) :
    n = ((t.filter (· ≠ '_')).foldl (fun a c => 10 * a + (c.toNat - 48)) 0 : Nat) := by
  have hs : ∀ l : List Char, (∀ c ∈ l, isDigit c = true ∨ c = '_') → l.dropWhile isSpacePy = l := by
    intro l hl
    cases l with
    | nil => rfl
    | cons c cs =>
      rw [List.dropWhile_cons_of_neg]
      rcases hl c (by simp) with h | rfl
      · simp only [isDigit, Bool.and_eq_true, decide_eq_true_eq] at h
        have h1 : ∀ d : Char, d.toNat < 48 → c ≠ d := by rintro d hd rfl; omega
        simp only [isSpacePy, isSpaceC, Bool.or_eq_true, Bool.and_eq_true, decide_eq_true_eq, not_or]
        exact ⟨⟨⟨⟨⟨⟨h1 _ (by decide), h1 _ (by decide)⟩, h1 _ (by decide)⟩, h1 _ (by decide)⟩, by omega⟩, by omega⟩, by omega⟩
      · decide
  unfold pyIntText at h
  rw [hs t ht, hs t.reverse (by simpa using ht), List.reverse_reverse] at h
  split at h
  · exact absurd (ht '+' (by simp)) (by decide)
  · exact absurd (ht '-' (by simp)) (by decide)
  · cases t with
    | nil => cases h
    | cons c cs =>
      rw [unsignedVal] at h
      split at h
      · rename_i hd
        have hc : c ≠ '_' := by rintro rfl; exact absurd hd (by decide)
        cases hv : digitsVal (c.toNat - 48) cs with
        | none => rw [hv] at h; cases h
        | some m =>
          rw [hv] at h
          cases h
          rw [digitsVal_spec _ _ _ hv, List.filter_cons_of_pos (by simpa using hc), List.foldl_cons, Nat.mul_zero, Nat.zero_add]
      · cases h

example : (∀ c ∈ "1_28".toList, isDigit c = true ∨ c = '_') ∧ pyIntText "1_28".toList = some 128 := by decide

/-- What `check_psitype` accepts: `newton`, `fresnel`, or `fresnel` followed by a number between 2 and 256. -/
theorem C110_psitype (s r : List Char) :
    checkPsitype s = .ok r ↔ r = cleaned s ∧
      (r = "newton".toList ∨ r = "fresnel".toList ∨
        ∃ t n, r = "fresnel".toList ++ t ∧ pyIntText t = some n ∧ 2 ≤ n ∧ n ≤ 256) := by
  unfold checkPsitype
  generalize cleaned s = p
  constructor
  · intro h
    simp only at h
    split at h
    · cases h
    · rename_i h0
      split at h
      · rename_i h1; cases h; exact ⟨rfl, .inr (.inl h1)⟩
      · split at h
        · rename_i h2
          cases hn : pyIntText (p.drop 7) with
          | none => rw [hn] at h; cases h
          | some n =>
            rw [hn] at h
            simp only at h
            split at h
            · cases h
            · rename_i hb
              cases h
              exact ⟨rfl, .inr (.inr ⟨r.drop 7, n, fresnel_first h2 hn, hn, by omega, by omega⟩)⟩
        · rename_i h2
          cases h
          exact ⟨rfl, .inl ((not_not.mp h0).resolve_right h2)⟩
  · rintro ⟨rfl, rfl | rfl | ⟨t, n, rfl, hn, h2, h3⟩⟩
    · decide
    · decide
    · have hin : "fresnel".toList <:+: "fresnel".toList ++ t := ⟨[], t, rfl⟩
      have hd : ("fresnel".toList ++ t).drop 7 = t := rfl
      have hne : "fresnel".toList ++ t ≠ "fresnel".toList := by
        intro hc
        have : t = [] := by simpa using hc
        rw [this] at hn
        have h0 : pyIntText [] = none := by decide
        rw [h0] at hn; cases hn
      simp only [hin, or_true, not_true, if_false, hne, if_true, hd, hn]
      rw [if_neg (by omega)]

theorem ofNat_digit {d : Nat} (h : d < 10) : isDigit (Char.ofNat (48 + d)) = true ∧ (Char.ofNat (48 + d)).toNat - 48 = d ∧
    isSpacePy (Char.ofNat (48 + d)) = false ∧ Char.ofNat (48 + d) ≠ '+' ∧ Char.ofNat (48 + d) ≠ '-' := by
  have : ∀ d < 10, isDigit (Char.ofNat (48 + d)) = true ∧ (Char.ofNat (48 + d)).toNat - 48 = d ∧
    isSpacePy (Char.ofNat (48 + d)) = false ∧ Char.ofNat (48 + d) ≠ '+' ∧ Char.ofNat (48 + d) ≠ '-' := by decide
  exact this d h

theorem digitsVal_snoc {d : Nat} (h : d < 10) (t : List Char) : ∀ n m, digitsVal n t = some m →
    digitsVal n (t ++ [Char.ofNat (48 + d)]) = some (10 * m + d) := by
  obtain ⟨h1, h2, -⟩ := ofNat_digit h
  induction t using List.twoStepInduction with
  | nil => intro n m hm; cases hm; simp only [List.nil_append, digitsVal, h1, if_true, h2]
  | singleton c =>
    intro n m hm
    by_cases hd : isDigit c = true
    · simp only [digitsVal, hd, if_true] at hm
      cases hm
      simp only [List.cons_append, List.nil_append, digitsVal, hd, if_true, h1, h2]
    · simp only [digitsVal, hd] at hm
      by_cases hu : c = '_' <;> simp [hu] at hm
  | cons_cons c e t ih1 ih2 =>
    intro n m hm
    by_cases hd : isDigit c = true
    · rw [digitsVal, if_pos hd] at hm
      rw [List.cons_append, digitsVal.eq_def]
      simp only [hd, if_true]
      exact ih2 e _ _ hm
    · rw [digitsVal, if_neg hd] at hm
      rw [List.cons_append, digitsVal.eq_def]
      simp only [hd]
      by_cases hu : c = '_'
      · simp only [hu, if_true] at hm ⊢
        by_cases he : isDigit e = true
        · simp only [he, if_true] at hm
          simp only [List.cons_append, he, if_true]
          exact ih1 _ _ hm
        · simp [he] at hm
      · simp [hu] at hm

theorem decimal_unsigned {t : List Char} {n : Nat} (h : Spec.Decimal t n) :
    unsignedVal t = some n ∧ (∃ c cs, t = c :: cs ∧ isSpacePy c = false ∧ c ≠ '+' ∧ c ≠ '-') ∧
      ∃ c cs, t.reverse = c :: cs ∧ isSpacePy c = false := by
  induction h with
  | one d hd =>
    obtain ⟨h1, h2, h3, h4, h5⟩ := ofNat_digit hd
    refine ⟨?_, ⟨_, _, rfl, h3, h4, h5⟩, ⟨_, _, rfl, h3⟩⟩
    simp only [unsignedVal, h1, if_true, h2, digitsVal]
  | snoc d ht hd ih =>
    obtain ⟨h1, h2, h3, h4, h5⟩ := ofNat_digit hd
    obtain ⟨i1, ⟨c, cs, rfl, i3⟩, -⟩ := ih
    refine ⟨?_, ⟨c, cs ++ [Char.ofNat (48 + d)], rfl, i3⟩, ⟨_, _, by rw [List.reverse_append]; rfl, h3⟩⟩
    by_cases hc : isDigit c = true
    · rw [unsignedVal, if_pos hc] at i1
      rw [List.cons_append, unsignedVal, if_pos hc]
      exact digitsVal_snoc hd cs _ _ i1
    · simp [unsignedVal, hc] at i1

theorem decimal_int {t : List Char} {n : Nat} (h : Spec.Decimal t n) : pyIntText t = some (n : Int) := by
  obtain ⟨h1, ⟨c, cs, ht, hs, hp, hm⟩, ⟨e, es, hr, he⟩⟩ := decimal_unsigned h
  unfold pyIntText
  have h2 : t.dropWhile isSpacePy = t := by rw [ht, List.dropWhile_cons_of_neg (by simp [hs])]
  have h3 : (t.reverse.dropWhile isSpacePy).reverse = t := by
    rw [hr, List.dropWhile_cons_of_neg (by simp [he]), ← hr, List.reverse_reverse]
  rw [h2, h3, ht]
  split
  · rename_i heq; cases heq; exact absurd rfl hp
  · rename_i heq; cases heq; exact absurd rfl hm
  · rw [← ht, h1]; rfl

/-- Every order between 2 and 256 in decimal digits is accepted. -/
theorem C110_orders {t : List Char} {n : Nat} (h : Spec.Decimal t n) (h2 : 2 ≤ n) (h3 : n ≤ 256) (s : List Char)
    (hs : cleaned s = "fresnel".toList ++ t) : checkPsitype s = .ok ("fresnel".toList ++ t) :=
  (C110_psitype s _).mpr ⟨hs.symm, .inr (.inr ⟨t, n, rfl, decimal_int h, by omega, by omega⟩)⟩

macro "window_tac" : tactic => `(tactic| (
  simp only [setWindowType, *, Option.isSome_none, Bool.false_eq_true, if_false, Bool.not_true]
  repeat rw [if_neg (by decide)]
  rw [if_pos (by decide)]))

/-- The C setter accepts every type of window that Python accepts, and stores the window of this name. -/
theorem C110_window (L : Lib) (t : TauD) (ht : t.err = none) (s r : List Char) (h : checkWtype s = .ok r) :
    ∃ w ∈ [("rect", Win.rect), ("coss", .coss), ("kb20", .kb20), ("kb25", .kb25), ("kb35", .kb35), ("kbmd20", .kbmd20),
        ("kbmd25", .kbmd25), ("kbmd35", .kbmd35)], r = w.1.toList ∧
      (setWindowType L (some r) true t).1 = { t with normeq := L.normEq w.2, window := w.2 } := by
  unfold checkWtype at h
  simp only at h
  split at h
  · rename_i hw
    cases h
    simp only [wTypes, List.map_cons, List.map_nil, List.mem_cons, List.not_mem_nil, or_false] at hw
    rcases hw with hw | hw | hw | hw | hw | hw | hw | hw
    · exact ⟨_, List.mem_cons_self, hw, by rw [hw]; window_tac⟩
    · exact ⟨("coss", .coss), by simp, hw, by rw [hw]; window_tac⟩
    · exact ⟨("kb20", .kb20), by simp, hw, by rw [hw]; window_tac⟩
    · exact ⟨("kb25", .kb25), by simp, hw, by rw [hw]; window_tac⟩
    · exact ⟨("kb35", .kb35), by simp, hw, by rw [hw]; window_tac⟩
    · exact ⟨("kbmd20", .kbmd20), by simp, hw, by rw [hw]; window_tac⟩
    · exact ⟨("kbmd25", .kbmd25), by simp, hw, by rw [hw]; window_tac⟩
    · exact ⟨("kbmd35", .kbmd35), by simp, hw, by rw [hw]; window_tac⟩
  · cases h

/-- Conversely, Python accepts a name without white space and quotation marks that the C setter accepts. -/
theorem C110_window_conv (L : Lib) (t : TauD) (ht : t.err = none) (s : List Char) (hc : cleaned s = canon s)
    (h : (setWindowType L (some s) true t).1.err = none) : checkWtype s = .ok (cleaned s) := by
  unfold checkWtype
  simp only
  rw [if_pos]
  rw [hc]
  by_contra hn
  simp only [wTypes, List.map_cons, List.map_nil, List.mem_cons, List.not_mem_nil, or_false, not_or] at hn
  obtain ⟨h1, h2, h3, h4, h5, h6, h7, h8⟩ := hn
  simp only [setWindowType, ht, Option.isSome_none, Bool.false_eq_true, if_false, Bool.not_true, h1, h2, h3, h4, h5, h6, h7, h8,
    Tau.fail] at h
  cases h

/-- The C setter accepts every name of a region that Python accepts, and stores the limits of Python's table. -/
theorem C110_region (t : TauD) (ht : t.err = none) (s r : List Char) (h : checkRangeText s = .ok r) :
    ∃ d ∈ regionDict, r = d.1.toList ∧
      setRange (some r) true t = .ok ({ t with range0 := .fin d.2.1, range1 := .fin d.2.2 }, [.alloc]) := by
  unfold checkRangeText at h
  simp only at h
  split at h
  · rename_i hr
    cases h
    obtain ⟨d, hd, hdr⟩ := List.mem_map.mp hr
    refine ⟨d, hd, hdr.symm, ?_⟩
    rw [← hdr]
    simp only [regionDict, List.mem_cons, List.not_mem_nil, or_false] at hd
    unfold setRange
    rcases hd with rfl | rfl | rfl | rfl | rfl | rfl | rfl | rfl | rfl | rfl | rfl | rfl | rfl | rfl | rfl | rfl | rfl | rfl | rfl |
      rfl | rfl <;>
    · simp only [ht, Option.isSome_none, Bool.false_eq_true, if_false, Bool.not_true]
      repeat rw [if_neg (by decide)]
      rw [if_pos (by decide)]
  · cases h

/-- What the C setter does with `fresnel` followed by a text that is not empty. -/
theorem setPsi_fresnel (toUChar : List Char → Fin 256) (t : TauD) (ht : t.err = none) {d : List Char} (hne : d ≠ [])
    (hc : canon ("fresnel".toList ++ d) = "fresnel".toList ++ d) :
    (setPsiType toUChar (some ("fresnel".toList ++ d)) true t).1 =
      if (toUChar d).val = 0 then Tau.fail { t with order := (toUChar d).val, psinum := .legendre } .setPsiType 143
      else if (toUChar d).val = 1 then
        { Tau.fail { t with order := (toUChar d).val, psinum := .legendre } .setPsiType 157 with order := 0 }
      else if (toUChar d).val = 2 then { t with psinum := .fresnel, order := 0 }
      else { t with psinum := .legendre, order := (toUChar d).val - 1 } := by
  have hd7 : ("fresnel".toList ++ d).drop 7 = d := rfl
  have ht7 : ("fresnel".toList ++ d).take 7 = "fresnel".toList := rfl
  have hn1 : ∀ x : List Char, x.head? ≠ some 'f' → "fresnel".toList ++ d ≠ x := by
    intro x hx hc; rw [← hc] at hx; exact hx rfl
  have hnf : "fresnel".toList ++ d ≠ "fresnel".toList := by
    intro hc; apply hne; simpa using hc
  simp only [setPsiType, ht, Option.isSome_none, Bool.false_eq_true, if_false, Bool.not_true, hc]
  rw [if_neg (hn1 _ (by decide)), if_neg (hn1 _ (by decide)), if_neg (hn1 _ (by decide)), if_neg (hn1 _ (by decide)),
    if_neg (hn1 _ (by decide)), if_neg (hn1 _ (by decide)), if_neg (hn1 _ (by decide)), if_neg (hn1 _ (by decide)),
    if_neg (hn1 _ (by decide)), if_neg (hn1 _ (by decide)), if_neg (hn1 _ (by decide)), if_neg hnf, if_pos ht7, hd7]

/-- The C setter accepts every other method that Python accepts, if it reads the digits of the order and the order is at most 255. -/
theorem C110_fresnel_partial (toUChar : List Char → Fin 256) (t : TauD) (ht : t.err = none) {d : List Char} {n : Nat}
    (hd : Spec.Decimal d n) (h2 : 2 ≤ n) (hu : (toUChar d).val = n) (hc : canon ("fresnel".toList ++ d) = "fresnel".toList ++ d) :
    let t' := (setPsiType toUChar (some ("fresnel".toList ++ d)) true t).1
    t'.err = none ∧ (n = 2 → t'.psinum = .fresnel) ∧ (2 < n → t'.psinum = .legendre ∧ t'.order = n - 1) := by
  intro t'
  have hne : d ≠ [] := by
    obtain ⟨-, ⟨c, cs, h, -⟩, -⟩ := decimal_unsigned hd
    rw [h]; simp
  have key := setPsi_fresnel toUChar t ht hne hc
  rw [hu, if_neg (by omega), if_neg (by omega)] at key
  refine ⟨?_, ?_, ?_⟩
  · simp only [t', key]; split <;> exact ht
  · intro h; simp only [t', key, if_pos h]
  · intro h; simp only [t', key, if_neg (show ¬ n = 2 by omega), and_self]

/-- It is false that every method that Python accepts is one of the C library: `newton`, the only method without `fresnel`, is not. -/
theorem C110_newton_false (toUChar : List Char → Fin 256) (t : TauD) (ht : t.err = none) :
    checkPsitype "Newton".toList = .ok "newton".toList ∧ (setPsiType toUChar (some "newton".toList) true t).1.err ≠ none := by
  refine ⟨by decide, ?_⟩
  have : (setPsiType toUChar (some "newton".toList) true t).1 = { t.fail .setPsiType 186 with order := 0, psinum := .none } := by
    simp only [setPsiType, ht, Option.isSome_none, Bool.false_eq_true, if_false, Bool.not_true]
    repeat rw [if_neg (by decide)]
  rw [this]; simp [Tau.fail]

/-- It is false that every method of the C library is accepted by Python: none of those of Newton is. -/
theorem C110_refused_false (toUChar : List Char → Fin 256) (t : TauD) (ht : t.err = none) (m : List Char)
    (hm : m ∈ ["newtonriemann", "newtonfilon01", "newtonfilon11", "newtonfilon02", "newtonfilon12", "newtonperturb", "ellipse",
      "simplefft", "newton4", "newton8", "newton16"].map String.toList) :
    (setPsiType toUChar (some m) true t).1.err = none ∧ checkPsitype m = .error .type := by
  simp only [List.map_cons, List.map_nil, List.mem_cons, List.not_mem_nil, or_false] at hm
  rcases hm with rfl | rfl | rfl | rfl | rfl | rfl | rfl | rfl | rfl | rfl | rfl <;>
    · refine ⟨?_, by decide⟩
      simp only [setPsiType, ht, Option.isSome_none, Bool.false_eq_true, if_false, Bool.not_true]
      repeat rw [if_neg (by decide)]
      rw [if_pos (by decide)]

/-- It is false that the orders up to 256 can be used: the C library never stores an order above 254, one less than the number. -/
theorem C110_order_false (toUChar : List Char → Fin 256) (t : TauD) (ht : t.err = none) :
    checkPsitype "fresnel256".toList = .ok "fresnel256".toList ∧ (setPsiType toUChar (some "fresnel256".toList) true t).1.order ≠ 255 := by
  refine ⟨by decide +kernel, ?_⟩
  have h : (toUChar "256".toList).val < 256 := (toUChar "256".toList).isLt
  have key := setPsi_fresnel toUChar t ht (d := "256".toList) (by decide +kernel) (by decide +kernel)
  rw [show "fresnel256".toList = "fresnel".toList ++ "256".toList by decide +kernel, key]
  generalize (toUChar "256".toList).val = n at h
  by_cases h0 : n = 0
  · rw [if_pos h0]; simp only [Tau.fail]; omega
  · rw [if_neg h0]
    by_cases h1 : n = 1
    · rw [if_pos h1]; simp
    · rw [if_neg h1]
      by_cases h2 : n = 2
      · rw [if_pos h2]; simp
      · rw [if_neg h2]; simp only; omega

/-- It is false that the number after `fresnel` must consist of digits. -/
theorem C110_digits_false :
    checkPsitype "fresnel+4".toList = .ok "fresnel+4".toList ∧ checkPsitype "fresnel1_0".toList = .ok "fresnel1_0".toList ∧
      checkPsitype "fresnel\t4".toList = .ok "fresnel\t4".toList := by
  decide +kernel

theorem npMin_some {l : List ℚ} (h : l ≠ []) : ∃ m ∈ l, npMin (l.map some) = some m ∧ ∀ x ∈ l, m ≤ x := by
  induction l with
  | nil => exact absurd rfl h
  | cons a l ih =>
    cases l with
    | nil => exact ⟨a, by simp, rfl, by simp⟩
    | cons b l =>
      obtain ⟨m, hm, he, hle⟩ := ih (by simp)
      refine ⟨min a m, ?_, ?_, ?_⟩
      · rcases le_total a m with h | h
        · rw [min_eq_left h]; simp
        · rw [min_eq_right h]; exact List.mem_cons_of_mem _ hm
      · have hr : npMin (some b :: l.map some) = some m := he
        simp only [List.map_cons, npMin, hr]
      · intro x hx
        rcases List.mem_cons.mp hx with rfl | hx
        · exact min_le_left _ _
        · exact (min_le_right _ _).trans (hle x hx)

/-- Numbers that are not NaN pass `check_positive` if and only if all are positive. -/
theorem C110_positive_partial (l : List ℚ) (h : l ≠ []) : checkPositive (l.map some) = .ok () ↔ ∀ x ∈ l, 0 < x := by
  obtain ⟨m, hm, he, hle⟩ := npMin_some h
  simp only [checkPositive, List.map_eq_nil_iff, h, if_false, he]
  constructor
  · intro hc x hx
    by_contra hn
    rw [if_pos ((hle x hx).trans (not_lt.mp hn))] at hc
    cases hc
  · intro hp
    rw [if_neg (not_le.mpr (hp m hm))]

/-- It is false that `check_positive` refuses every list with a negative number: NaN hides it. -/
theorem C110_positive_false : checkPositive [some (-1), none] = .ok () := by decide +kernel

/-- A list of numbers as range passes if and only if there are two of them and none is negative, and is then not changed. -/
theorem C110_list_partial (l : List ℚ) (r : List (Option ℚ)) :
    checkRangeList (l.map some) = .ok r ↔ r = l.map some ∧ 2 ≤ l.length ∧ ∀ x ∈ l, 0 ≤ x := by
  unfold checkRangeList
  rw [List.length_map]
  by_cases h2 : l.length < 2
  · rw [if_pos h2]
    constructor
    · intro h; cases h
    · intro h; omega
  · have hne : l ≠ [] := by intro hc; rw [hc] at h2; simp at h2
    obtain ⟨m, hm, he, hle⟩ := npMin_some hne
    have hl : ltNan (some m) 0 = decide (m < 0) := rfl
    rw [if_neg h2, he, hl]
    by_cases hn : m < 0
    · rw [if_pos (by simpa using hn)]
      constructor
      · intro h; cases h
      · intro h; exact absurd (h.2.2 m hm) (not_le.mpr hn)
    · rw [if_neg (by simpa using hn)]
      constructor
      · intro h
        cases h
        exact ⟨rfl, by omega, fun x hx => (not_lt.mp hn).trans (hle x hx)⟩
      · intro h; rw [h.1]

/-- It is false that an accepted range has its start before its end, that it has two elements, and that it has no NaN. -/
theorem C110_list_false :
    checkRangeList [some 5, some 3] = .ok [some 5, some 3] ∧
      checkRangeList [some 1, some 2, some 3] = .ok [some 1, some 2, some 3] ∧ checkRangeList [none, some (-1)] = .ok [none, some (-1)] := by
  decide +kernel

/-- An angle in degrees that passes is at most a ten-thousandth of a degree above a full turn, and every angle within a full turn passes. -/
theorem C110_degrees_partial (x : ℚ) : (checkTwoPi x true = .ok () → |x| ≤ 360 + 1 / 10000) ∧ (|x| ≤ 360 → checkTwoPi x true = .ok ()) := by
  have e : ((360.0001 : ℚ)) = 360 + 1 / 10000 := by norm_num
  simp only [checkTwoPi, if_true, e]
  constructor
  · intro h
    by_contra hn
    rw [if_pos (not_le.mp hn)] at h
    cases h
  · intro h
    rw [if_neg (not_lt.mpr (h.trans (by norm_num)))]

example : checkTwoPi 360 true = .ok () ∧ checkTwoPi (-360) true = .ok () ∧ checkTwoPi 361 true = .error .type := by
  decide +kernel

/-- An angle in radians that passes is at most a ten-thousandth above a full turn, and every angle within a full turn passes. -/
theorem C110_angle_partial (x : ℚ) :
    (checkTwoPi x false = .ok () → |(x : ℝ)| < 2 * Real.pi + 1 / 10000) ∧ (|(x : ℝ)| ≤ 2 * Real.pi → checkTwoPi x false = .ok ()) := by
  have h1 := Real.pi_gt_d6
  have h2 := Real.pi_lt_d6
  have hc : ((|x| : ℚ) : ℝ) = |(x : ℝ)| := by push_cast; rfl
  constructor
  · intro h
    simp only [checkTwoPi, Bool.false_eq_true, if_false] at h
    by_cases hn : 6.2832 < |x|
    · rw [if_pos hn] at h; cases h
    · have hn' : |x| ≤ 6.2832 := not_lt.mp hn
      have : ((|x| : ℚ) : ℝ) ≤ ((6.2832 : ℚ) : ℝ) := by exact_mod_cast hn'
      rw [hc] at this
      norm_num at this h1 ⊢
      linarith
  · intro h
    unfold checkTwoPi
    rw [if_neg]
    rw [not_lt]
    simp only [Bool.false_eq_true, if_false]
    have : ((|x| : ℚ) : ℝ) ≤ ((6.2832 : ℚ) : ℝ) := by
      rw [hc]
      norm_num at h2 ⊢
      linarith
    exact_mod_cast this

/-- It is false that an angle that passes is within a full turn. -/
theorem C110_angle_false : checkTwoPi 6.2832 false = .ok () ∧ 2 * Real.pi < ((6.2832 : ℚ) : ℝ) := by
  refine ⟨by decide +kernel, ?_⟩
  have h2 := Real.pi_lt_d6
  norm_num at h2 ⊢
  linarith

example : cleaned " Fresnel 4".toList = "fresnel4".toList ∧ checkPsitype " Fresnel 4".toList = .ok "fresnel4".toList := by decide +kernel
example : Spec.Decimal "16".toList 16 := .snoc (t := ['1']) (n := 1) 6 (.one 1 (by decide)) (by decide)
example : canon ("fresnel".toList ++ "16".toList) = "fresnel".toList ++ "16".toList := by decide +kernel
example : checkPsitype "fresnel1".toList = .error .type ∧ checkPsitype "fresnel257".toList = .error .type ∧
    checkPsitype "4fresnel".toList = .error .type := by decide +kernel
example : checkWtype "KB 20".toList = .ok "kb20".toList := by decide +kernel
example : cleaned "kbmd20".toList = canon "kbmd20".toList := by decide +kernel
example : checkRangeText "C Ring Ripples".toList = .ok "cringripples".toList := by decide +kernel
example : checkPositive ([1, 2].map some) = .ok () ∧ checkRangeList ([0, 2].map some) = .ok ([0, 2].map some) := by decide +kernel

end Verif.Chk
