import Verif.Model.Parse
import Verif.Model.ErrText
import Mathlib.Tactic.SplitIfs

/-!
# C150: the message about an illegal string lists what is allowed

src/tau/rss_ringoccs_tau_set_range_from_string.c, rss_ringoccs_tau_set_window_type.c, rss_ringoccs_tau_set_psi_type.c: the strings are read from the
texts of the messages.
-/
namespace Verif.Msg
open Verif

namespace Spec

/-- A number of digits, and what follows. -/
def number (s : List Char) : ℚ × List Char :=
  ((s.takeWhile Char.isDigit).foldl (fun n c => 10 * n + ((c.toNat - 48 : Nat) : ℚ)) 0, s.dropWhile Char.isDigit)

/-- A line `name [a.0, b.0]` after a carriage return and a tabulator. -/
def region (line : List Char) : Option (List Char × ℚ × ℚ) :=
  match line with
  | '\r' :: '\t' :: r =>
    match (r.dropWhile (· ≠ ' ')).dropWhile (· = ' ') with
    | '[' :: u =>
      match number u with
      | (a, '.' :: '0' :: ',' :: ' ' :: v) =>
        match number v with
        | (b, ['.', '0', ']', '\n']) => some (r.takeWhile (· ≠ ' '), a, b)
        | _ => none
      | _ => none
    | _ => none
  | _ => none

/-- What the message about ranges offers. -/
def regions : List (List Char × ℚ × ℚ) := rangeTextLines.filterMap region

/-- The windows and how they are described. -/
def described : List (List Char × Win) :=
  [(chars!"Rectangular Window\n", .rect), (chars!"Squared Cosine Window\n", .coss), (chars!"Kaiser-Bessel with alpha = 2.0 pi\n", .kb20),
   (chars!"Kaiser-Bessel with alpha = 2.5 pi\n", .kb25), (chars!"Kaiser-Bessel with alpha = 3.5 pi\n", .kb35),
   (chars!"Modified Kaiser-Bessel with alpha = 2.0 pi\n", .kbmd20), (chars!"Modified Kaiser-Bessel with alpha = 2.5 pi\n", .kbmd25),
   (chars!"Modified Kaiser-Bessel with alpha = 3.5 pi\n", .kbmd35)]

/-- A line `name: description` after a carriage return and two tabulators. -/
def windowLine (line : List Char) : Option (List Char × Win) :=
  match line with
  | '\r' :: '\t' :: '\t' :: r =>
    match r.dropWhile (· ≠ ':') with
    | ':' :: d => (described.lookup (d.dropWhile (· = ' '))).map fun w => (r.takeWhile (· ≠ ':'), w)
    | _ => none
  | _ => none

/-- What the message about windows offers. -/
def windows : List (List Char × Win) := windowTextLines.filterMap windowLine

/-- A line with four spaces, a name and a colon. -/
def methodLine (line : List Char) : Option (List Char) :=
  match line with
  | ' ' :: ' ' :: ' ' :: ' ' :: c :: r => if c ≠ ' ' ∧ r.dropWhile (· ≠ ':') = [':', '\n'] then some (c :: r.takeWhile (· ≠ ':')) else none
  | _ => none

/-- What the message about methods offers. -/
def methods : List (List Char) := psiTextLines.filterMap methodLine

end Spec
open Spec

theorem foldr_find {A B : Type} (l : List (List Char × A)) (c : List Char) (f : A → B) (z : B) :
    l.foldr (fun o r => if c = o.1 then f o.2 else r) z = match l.find? (fun o => decide (c = o.1)) with | some o => f o.2 | none => z := by
  induction l with
  | nil => rfl
  | cons o l ih =>
    rw [List.foldr_cons, List.find?_cons]
    by_cases h : c = o.1
    · simp [h]
    · simp only [h, if_false, decide_false, Bool.false_eq_true, ih]

theorem if_or' {A : Type} (p q : Prop) [Decidable p] [Decidable q] (a b : A) : (if p ∨ q then a else b) = if p then a else if q then a else b := by
  by_cases hp : p <;> by_cases hq : q <;> simp [hp, hq]

theorem regions_eq : regions = [("all".toList, 1, 400000), ("besselbarnard".toList, 120210, 120330), ("bessel-barnard".toList, 120210, 120330),
    ("cringripples".toList, 77690, 77760), ("encke".toList, 132900, 134200), ("enckegap".toList, 132900, 134200), ("herschel".toList, 118100, 118380),
    ("herschelgap".toList, 118100, 118380), ("huygens".toList, 117650, 117950), ("huygensringlet".toList, 117650, 117950),
    ("janusepimetheus".toList, 96200, 96800), ("jeffreys".toList, 118900, 119000), ("jeffreysgap".toList, 118900, 119000),
    ("kuiper".toList, 119300, 119500), ("kuipergap".toList, 119300, 119500), ("maxwell".toList, 87410, 87610), ("maxwellringlet".toList, 87410, 87610),
    ("russell".toList, 118550, 118660), ("russellgap".toList, 118550, 118660), ("titan".toList, 77870, 77930), ("titanringlet".toList, 77870, 77930)] := by
  decide +kernel

theorem chain_or {B : Type} {n1 n2 n3 n4 n5 n6 n7 n8 n9 n10 n11 n12 n13 n14 n15 n16 n17 n18 n19 n20 n21 : List Char}
    {a1 a2 a3 a4 a5 a6 a7 a8 a9 a10 a11 a12 b1 b2 b3 b4 b5 b6 b7 b8 b9 b10 b11 b12 : ℚ} (c : List Char) (f : ℚ → ℚ → B) (z : B) :
    (if c = n1 then f a1 b1 else if c = n2 ∨ c = n3 then f a2 b2 else if c = n4 then f a3 b3 else if c = n5 ∨ c = n6 then f a4 b4
      else if c = n7 ∨ c = n8 then f a5 b5 else if c = n9 ∨ c = n10 then f a6 b6 else if c = n11 then f a7 b7 else if c = n12 ∨ c = n13 then f a8 b8
      else if c = n14 ∨ c = n15 then f a9 b9 else if c = n16 ∨ c = n17 then f a10 b10 else if c = n18 ∨ c = n19 then f a11 b11
      else if c = n20 ∨ c = n21 then f a12 b12 else z) =
    [(n1, a1, b1), (n2, a2, b2), (n3, a2, b2), (n4, a3, b3), (n5, a4, b4), (n6, a4, b4), (n7, a5, b5), (n8, a5, b5), (n9, a6, b6), (n10, a6, b6),
      (n11, a7, b7), (n12, a8, b8), (n13, a8, b8), (n14, a9, b9), (n15, a9, b9), (n16, a10, b10), (n17, a10, b10), (n18, a11, b11), (n19, a11, b11),
      (n20, a12, b12), (n21, a12, b12)].foldr (fun o r => if c = o.1 then f o.2.1 o.2.2 else r) z := by
  simp only [if_or', List.foldr_cons, List.foldr_nil]

/-- A range is accepted exactly when the message offers it (with any spaces and capital letters), and its limits are those of the message. -/
theorem C150_range (s : List Char) (t : TauD) (h : t.err = none) : ∃ t', setRange (some s) true t = .ok (t', [.alloc]) ∧
    match regions.find? (fun o => decide (canon s = o.1)) with
    | some o => t' = { t with range0 := .fin o.2.1, range1 := .fin o.2.2 }
    | none => t'.err ≠ none := by
  obtain ⟨f, hf⟩ : ∃ f : ℚ → ℚ → TauD, f = fun a b => { t with range0 := .fin a, range1 := .fin b } := ⟨_, rfl⟩
  obtain ⟨z, hz⟩ : ∃ z : TauD, z = { t.fail .setRange 135 with range0 := .fin (-1), range1 := .fin (-1) } := ⟨_, rfl⟩
  have e : setRange (some s) true t = .ok (regions.foldr (fun o r => if canon s = o.1 then f o.2.1 o.2.2 else r) z, [.alloc]) := by
    rw [regions_eq, ← chain_or, hf, hz]
    simp only [setRange, h, Option.isSome_none, Bool.false_eq_true, if_false, Bool.not_true]
  refine ⟨_, e, ?_⟩
  rw [foldr_find regions (canon s) (fun q : ℚ × ℚ => f q.1 q.2)]
  split
  · next o ho => rw [ho, hf]
  · next ho => rw [ho, hz]; simp [Tau.fail]

/-- `Encke Gap` is accepted, `Cassini` is not. -/
example {t : TauD} (h : t.err = none) :
    (∃ t', setRange (some "Encke Gap".toList) true t = .ok (t', [.alloc]) ∧ t' = { t with range0 := .fin 132900, range1 := .fin 134200 }) ∧
    ∃ t', setRange (some "Cassini".toList) true t = .ok (t', [.alloc]) ∧ t'.err ≠ none := by
  constructor
  · obtain ⟨t', e, r⟩ := C150_range "Encke Gap".toList t h
    rw [show regions.find? (fun o => decide (canon "Encke Gap".toList = o.1)) = some ("enckegap".toList, 132900, 134200) from by decide +kernel] at r
    exact ⟨t', e, r⟩
  · obtain ⟨t', e, r⟩ := C150_range "Cassini".toList t h
    rw [show regions.find? (fun o => decide (canon "Cassini".toList = o.1)) = none from by decide +kernel] at r
    exact ⟨t', e, r⟩

theorem windows_eq : windows = [("rect".toList, .rect), ("coss".toList, .coss), ("kb20".toList, .kb20), ("kb25".toList, .kb25), ("kb35".toList, .kb35),
    ("kbmd20".toList, .kbmd20), ("kbmd25".toList, .kbmd25), ("kbmd35".toList, .kbmd35)] := by
  decide +kernel

/-- A window is accepted exactly when the message offers it, and it is the window that the message describes. -/
theorem C150_window (L : Lib) (s : List Char) (t : TauD) (h : t.err = none) :
    match windows.find? (fun o => decide (canon s = o.1)) with
    | some o => (setWindowType L (some s) true t).1 = { t with normeq := L.normEq o.2, window := o.2 }
    | none => (setWindowType L (some s) true t).1.err ≠ none := by
  have e : (setWindowType L (some s) true t).1 = windows.foldr (fun o r => if canon s = o.1 then { t with normeq := L.normEq o.2, window := o.2 } else r)
      { t.fail .setWindowType 86 with normeq := .fin (-1) } := by
    simp only [setWindowType, h, Option.isSome_none, Bool.false_eq_true, if_false, Bool.not_true, windows_eq, List.foldr_cons, List.foldr_nil]
  have e2 := e.trans (foldr_find windows (canon s) (fun w => ({ t with normeq := L.normEq w, window := w } : TauD)) _)
  split
  · next o ho => rw [e2, ho]
  · next ho => rw [e2, ho]; simp [Tau.fail]

/-- `KBmd 20` is accepted, `hann` is not. -/
example (L : Lib) {t : TauD} (h : t.err = none) :
    (setWindowType L (some "KBmd 20".toList) true t).1 = { t with normeq := L.normEq .kbmd20, window := .kbmd20 } ∧
    (setWindowType L (some "hann".toList) true t).1.err ≠ none := by
  constructor
  · have r := C150_window L "KBmd 20".toList t h
    rw [show windows.find? (fun o => decide (canon "KBmd 20".toList = o.1)) = some ("kbmd20".toList, .kbmd20) from by decide +kernel] at r
    exact r
  · have r := C150_window L "hann".toList t h
    rw [show windows.find? (fun o => decide (canon "hann".toList = o.1)) = none from by decide +kernel] at r
    exact r

theorem methods_eq : methods = ["Newton Riemann".toList, "Newton Filon 01".toList, "Newton Filon 11".toList, "Newton Filon 02".toList,
    "Newton Filon 12".toList, "Newton Perturb".toList, "Newton 4".toList, "Newton 8".toList, "Newton 16".toList, "Simple FFT".toList, "Ellipse".toList,
    "Fresnel".toList, "Fresnel n".toList] := by
  decide +kernel

/-- The names other than that with a number, without spaces and capital letters. -/
def plainMethods : List (List Char) := (methods.filter fun m => decide (m ≠ "Fresnel n".toList)).map canon

theorem plain_eq : plainMethods = ["newtonriemann".toList, "newtonfilon01".toList, "newtonfilon11".toList, "newtonfilon02".toList,
    "newtonfilon12".toList, "newtonperturb".toList, "newton4".toList, "newton8".toList, "newton16".toList, "simplefft".toList, "ellipse".toList,
    "fresnel".toList] := by
  decide +kernel

/-- The methods and their numbers. -/
def psiNums : List (List Char × Psi) := [("newtonriemann".toList, .newtonRiemann), ("newtonfilon01".toList, .newtonFilon01),
  ("newtonfilon11".toList, .newtonFilon11), ("newtonfilon02".toList, .newtonFilon02), ("newtonfilon12".toList, .newtonFilon12),
  ("newtonperturb".toList, .newtonPerturb), ("newton4".toList, .newton4), ("newton8".toList, .newton8), ("newton16".toList, .newton16),
  ("simplefft".toList, .newtonSimpleFFT), ("ellipse".toList, .ellipticNewton), ("fresnel".toList, .fresnel)]

/-- Each method that is offered by name is accepted, however it is spelled, and different ones are different. -/
theorem C150_offered (toUChar : List Char → Fin 256) {s : List Char} {t : TauD} (h : t.err = none) (hs : canon s ∈ plainMethods) :
    (setPsiType toUChar (some s) true t).1.err = none ∧ (setPsiType toUChar (some s) true t).1.psinum ≠ .none ∧
    ∀ s', canon s' ∈ plainMethods → (setPsiType toUChar (some s') true t).1.psinum = (setPsiType toUChar (some s) true t).1.psinum → canon s' = canon s := by
  have key : ∀ s : List Char, canon s ∈ plainMethods → ∃ p, (canon s, p) ∈ psiNums ∧ (setPsiType toUChar (some s) true t).1 = { t with psinum := p } := by
    intro s hs
    rw [plain_eq] at hs
    simp only [setPsiType, h, Option.isSome_none, Bool.false_eq_true, if_false, Bool.not_true]
    simp only [List.mem_cons, List.not_mem_nil, or_false] at hs
    rcases hs with e | e | e | e | e | e | e | e | e | e | e | e <;> rw [e]
    · exact ⟨.newtonRiemann, by decide, rfl⟩
    · exact ⟨.newtonFilon01, by decide, rfl⟩
    · exact ⟨.newtonFilon11, by decide, rfl⟩
    · exact ⟨.newtonFilon02, by decide, rfl⟩
    · exact ⟨.newtonFilon12, by decide, rfl⟩
    · exact ⟨.newtonPerturb, by decide, rfl⟩
    · exact ⟨.newton4, by decide, rfl⟩
    · exact ⟨.newton8, by decide, rfl⟩
    · exact ⟨.newton16, by decide, rfl⟩
    · exact ⟨.newtonSimpleFFT, by decide, rfl⟩
    · exact ⟨.ellipticNewton, by decide, rfl⟩
    · exact ⟨.fresnel, by decide, rfl⟩
  obtain ⟨p, hp, e⟩ := key s hs
  rw [e]
  refine ⟨h, ?_, ?_⟩
  · have : ∀ q ∈ psiNums, q.2 ≠ Psi.none := by decide
    exact this _ hp
  · intro s' hs' he
    obtain ⟨p', hp', e'⟩ := key s' hs'
    rw [e'] at he
    have hpp : p' = p := he
    have : ∀ q ∈ psiNums, ∀ r ∈ psiNums, q.2 = r.2 → q.1 = r.1 := by decide +kernel
    exact this _ hp' _ hp hpp

/-- `Newton Filon 11` is one of them. -/
example (toUChar : List Char → Fin 256) {t : TauD} (h : t.err = none) : (setPsiType toUChar (some "Newton Filon 11".toList) true t).1.err = none :=
  (C150_offered toUChar h (by decide +kernel)).1

/-- What is accepted is offered, or it is `fresnel` with a number from 2 on.  (Full claim: from 4 on; see `C150_number_false`.) -/
theorem C150_accepted_partial (toUChar : List Char → Fin 256) {s : List Char} {t : TauD} (h : t.err = none)
    (ha : (setPsiType toUChar (some s) true t).1.err = none) : canon s ∈ plainMethods ∨ ∃ d, canon s = "fresnel".toList ++ d ∧ 2 ≤ (toUChar d).val := by
  by_contra hn
  rw [not_or, plain_eq] at hn
  obtain ⟨h1, h2⟩ := hn
  simp only [List.mem_cons, List.not_mem_nil, or_false, not_or] at h1
  obtain ⟨n1, n2, n3, n4, n5, n6, n7, n8, n9, n10, n11, n12⟩ := h1
  simp only [setPsiType, h, Option.isSome_none, Bool.false_eq_true, if_false, Bool.not_true, n1, n2, n3, n4, n5, n6, n7, n8, n9, n10, n11, n12] at ha
  by_cases hf : (canon s).take 7 = "fresnel".toList
  · have h3 : ¬ 2 ≤ (toUChar ((canon s).drop 7)).val := fun hge => h2 ⟨_, by rw [← hf, List.take_append_drop], hge⟩
    rw [if_pos hf] at ha
    split at ha
    · cases ha
    · rw [if_pos (by omega)] at ha
      cases ha
  · rw [if_neg hf] at ha
    cases ha

/-- `fresnel` with a number from 4 to 255, as offered, selects the expansion of that degree. -/
theorem C150_number (toUChar : List Char → Fin 256) {s d : List Char} {t : TauD} (h : t.err = none) (hs : canon s = "fresnel".toList ++ d) (hd : d ≠ [])
    (h3 : 3 < (toUChar d).val) :
    (setPsiType toUChar (some s) true t).1 = { t with psinum := .legendre, order := (toUChar d).val - 1 } := by
  have hd7 : ("fresnel".toList ++ d).drop 7 = d := rfl
  have ht7 : ("fresnel".toList ++ d).take 7 = "fresnel".toList := rfl
  have hn1 : ∀ x : List Char, x.head? ≠ some 'f' → "fresnel".toList ++ d ≠ x := by
    intro x hx hc; rw [← hc] at hx; exact hx rfl
  have hnf : "fresnel".toList ++ d ≠ "fresnel".toList := by
    intro hc; apply hd; simpa using hc
  simp only [setPsiType, h, Option.isSome_none, Bool.false_eq_true, if_false, Bool.not_true, hs]
  rw [if_neg (hn1 _ (by decide)), if_neg (hn1 _ (by decide)), if_neg (hn1 _ (by decide)), if_neg (hn1 _ (by decide)),
    if_neg (hn1 _ (by decide)), if_neg (hn1 _ (by decide)), if_neg (hn1 _ (by decide)), if_neg (hn1 _ (by decide)),
    if_neg (hn1 _ (by decide)), if_neg (hn1 _ (by decide)), if_neg (hn1 _ (by decide)), if_neg hnf, if_pos ht7, hd7,
    if_neg (by omega), if_neg (by omega), if_neg (by omega)]

/-- `Fresnel 8` when the number is read. -/
example (toUChar : List Char → Fin 256) (h8 : toUChar ['8'] = 8) {t : TauD} (h : t.err = none) :
    (setPsiType toUChar (some "Fresnel 8".toList) true t).1 = { t with psinum := .legendre, order := 7 } := by
  rw [C150_number toUChar h (show canon "Fresnel 8".toList = "fresnel".toList ++ ['8'] from by decide +kernel) (by decide) (by rw [h8]; decide), h8]
  rfl

/-- `fresnel2` and `fresnel3` are accepted as well. -/
theorem C150_number_false (toUChar : List Char → Fin 256) (h2 : toUChar ['2'] = 2) (h3 : toUChar ['3'] = 3) {t : TauD} (h : t.err = none) :
    (setPsiType toUChar (some "fresnel2".toList) true t).1 = { t with psinum := .fresnel, order := 0 } ∧
    (setPsiType toUChar (some "fresnel3".toList) true t).1 = { t with psinum := .legendre, order := 2 } ∧
    canon "fresnel2".toList ∉ plainMethods ∧ canon "fresnel3".toList ∉ plainMethods := by
  refine ⟨?_, ?_, by decide +kernel, by decide +kernel⟩
  · simp only [setPsiType, h, Option.isSome_none, Bool.false_eq_true, if_false, Bool.not_true]
    rw [show canon "fresnel2".toList = "fresnel2".toList from by decide]
    repeat rw [if_neg (by decide)]
    rw [if_pos (by decide), show "fresnel2".toList.drop 7 = ['2'] from by decide, h2]
    rfl
  · simp only [setPsiType, h, Option.isSome_none, Bool.false_eq_true, if_false, Bool.not_true]
    rw [show canon "fresnel3".toList = "fresnel3".toList from by decide]
    repeat rw [if_neg (by decide)]
    rw [if_pos (by decide), show "fresnel3".toList.drop 7 = ['3'] from by decide, h3]
    rfl

end Verif.Msg
