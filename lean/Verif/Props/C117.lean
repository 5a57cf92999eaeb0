import Verif.Model.LabelText
import Verif.Spec.LabelText
import Mathlib.Algebra.BigOperators.Group.List.Basic

/-!
# C117: the text of labels
-/
namespace Verif.Pds
open Verif.Rsr Spec

theorem splitOn_ne (c : Char) : ∀ s, splitOn c s ≠ []
  | [] => by simp [splitOn]
  | x :: xs => by
    rw [splitOn]
    split
    · simp
    · split <;> simp

theorem commas_cons {l : List Char} {ls : List (List Char)} (h : ls ≠ []) : commas (l :: ls) = l ++ ',' :: commas ls := by
  cases ls with
  | nil => exact absurd rfl h
  | cons m ms => rfl

/-- Splitting at commas and joining with commas. -/
theorem commas_splitOn : ∀ s, commas (splitOn ',' s) = s
  | [] => rfl
  | x :: xs => by
    have ih := commas_splitOn xs
    have hne := splitOn_ne ',' xs
    rw [splitOn]
    split
    · rename_i h
      rw [commas_cons hne, ih, h]
      rfl
    · cases h : splitOn ',' xs with
      | nil => exact absurd h hne
      | cons l ls =>
        rw [h] at ih
        simp only
        cases ls with
        | nil => simpa [commas] using ih
        | cons m ms =>
          rw [commas_cons (by simp)] at ih ⊢
          rw [List.cons_append, ih]

theorem quotes_append (a b : List Char) : quotes (a ++ b) = quotes a + quotes b := List.count_append

theorem quotes_cons {c : Char} (h : c ≠ '"') (a : List Char) : quotes (c :: a) = quotes a := by
  simp [quotes, h]

theorem quotes_spaces (n : Nat) : quotes (List.replicate n ' ') = 0 := by
  simp [quotes, List.count_replicate]

/-- Splitting keeps the quotation marks. -/
theorem quotes_splitOn {c : Char} (hc : c ≠ '"') : ∀ s, ((splitOn c s).map quotes).sum = quotes s
  | [] => rfl
  | x :: xs => by
    have ih := quotes_splitOn hc xs
    rw [splitOn]
    split
    · rename_i h
      rw [List.map_cons, List.sum_cons, ih, h, quotes_cons hc]
      simp [quotes]
    · cases h : splitOn c xs with
      | nil => exact absurd h (splitOn_ne c xs)
      | cons l ls =>
        rw [h] at ih
        simp only [List.map_cons, List.sum_cons] at ih ⊢
        have : ∀ t, quotes (x :: t) = quotes [x] + quotes t := fun t => quotes_append [x] t
        rw [this, this xs, Nat.add_assoc, ih]

theorem quotes_cr : quotes cr = 0 := by decide

theorem quotes_ljust (n : Nat) (s : List Char) : quotes (ljust n s) = quotes s := by
  rw [ljust, quotes_append, quotes_spaces]; rfl

theorem quotes_statement (n : Nat) (k v : List Char) : quotes (statement n k v) = quotes k + quotes v := by
  simp only [statement, quotes_append, quotes_ljust, quotes_cr]
  simp [quotes]

theorem quotes_several {sd : Char} (hs : sd ≠ '"') (head indent val : List Char) (hi : quotes indent = 0) :
    quotes (severalLines sd head indent val) = quotes head + quotes val := by
  have h := quotes_splitOn hs val
  rw [severalLines]
  cases hv : splitOn sd val with
  | nil => exact absurd hv (splitOn_ne _ _)
  | cons l ls =>
    rw [hv, List.map_cons, List.sum_cons] at h
    have key : ∀ ls : List (List Char), quotes (ls.flatMap fun m => indent ++ m ++ cr) = (ls.map quotes).sum := by
      intro ls
      induction ls with
      | nil => rfl
      | cons a as ih => rw [List.flatMap_cons, quotes_append, ih]; simp [quotes_append, hi, quotes_cr]
    simp only [quotes_append, key, quotes_cr]
    omega

/-- The quotation marks of keys and values. -/
def quotesOf (kvs : List (List Char × List Char)) : Nat := (kvs.map fun kv => quotes kv.1 + quotes kv.2).sum

theorem quotes_header (pad : Nat) : ∀ kws, quotes (headerText pad kws) = (kws.map fun k => (k.map quotesOf).getD 0).sum
  | [] => rfl
  | k :: ks => by
    have ih := quotes_header pad ks
    have e : headerText pad (k :: ks) = headerText pad [k] ++ headerText pad ks := by simp [headerText]
    rw [e, quotes_append, ih, List.map_cons, List.sum_cons]
    congr 1
    cases k with
    | none => rfl
    | some l =>
      simp only [headerText, List.flatMap_cons, List.flatMap_nil, List.append_nil, Option.map_some, Option.getD_some]
      clear e
      induction l with
      | nil => rfl
      | cons a as ih2 =>
        rw [List.flatMap_cons, quotes_append, quotes_statement, ih2]
        simp [quotesOf]

theorem quotes_series (pad : Nat) {sd : Char} (hs : sd ≠ '"') : ∀ s, quotes (seriesText pad sd s) = quotesOf s
  | [] => rfl
  | kv :: s => by
    have ih := quotes_series pad hs s
    have e : seriesText pad sd (kv :: s) = seriesText pad sd [kv] ++ seriesText pad sd s := by simp [seriesText]
    rw [e, quotes_append, ih]
    simp only [seriesText, List.flatMap_cons, List.flatMap_nil, List.append_nil, quotesOf, List.map_cons, List.sum_cons]
    congr 1
    split
    · exact quotes_statement _ _ _
    · rw [quotes_several hs _ _ _ (by decide)]
      simp only [quotes_append, quotes_ljust]
      simp [quotes]

theorem quotes_kernelLines (pad : Nat) (single : Bool) : ∀ (first : Bool) (ks : List (List Char)),
    quotes (kernelLines pad single first ks) = (ks.map quotes).sum
  | _, [] => rfl
  | first, [k] => by
    have e : quotes "SPICE_FILE_NAME".toList = 0 := by decide
    have c : quotes [','] = 0 := by decide
    have c2 : quotes ['=', ' '] = 0 := by decide
    have c3 : quotes [] = 0 := rfl
    rw [kernelLines]
    cases first <;> cases single <;> simp only [if_true, if_false, Bool.false_eq_true, quotes_append, quotes_ljust, quotes_cr, quotes_spaces, e, c,
      c2, c3, List.map_cons, List.map_nil, List.sum_cons, List.sum_nil, Nat.zero_add, Nat.add_zero]
  | first, k :: l :: ks => by
    have ih := quotes_kernelLines pad single false (l :: ks)
    have e : quotes "SPICE_FILE_NAME".toList = 0 := by decide
    have c : quotes [','] = 0 := by decide
    have c2 : quotes ['=', ' '] = 0 := by decide
    have c3 : quotes [] = 0 := rfl
    rw [kernelLines, quotes_append, ih]
    · cases first <;> cases single <;> simp only [if_true, if_false, Bool.false_eq_true, quotes_append, quotes_ljust, quotes_cr, quotes_spaces, e, c,
        c2, c3, List.map_cons, List.sum_cons, Nat.zero_add, Nat.add_zero]
    · simp

theorem quotes_closeLast : ∀ ks, ((closeLast ks).map quotes).sum = (ks.map quotes).sum
  | [] => rfl
  | [k] => by simp [closeLast, quotes_append]; rfl
  | k :: l :: ks => by
    have := quotes_closeLast (l :: ks)
    rw [closeLast]
    · simp only [List.map_cons, List.sum_cons] at this ⊢; rw [this]
    · simp

theorem quotes_kernels {pad : Nat} {ks : Option (List (List Char))} {t : List Char} (h : kernelText pad ks = .ok t) :
    quotes t = ((ks.getD []).map quotes).sum := by
  match ks, h with
  | none, h => obtain rfl : [] = t := by simpa [kernelText] using h
               rfl
  | some (k :: ks), h =>
    have h : kernelLines pad ks.isEmpty true (closeLast (('{' :: k) :: ks)) = t := by simpa [kernelText] using h
    rw [← h, quotes_kernelLines, quotes_closeLast]
    simp [quotes_cons]

theorem mapM_all {α β : Type} {P : β → Prop} {f : α → Py β} : ∀ {l : List α} {ys : List β}, l.mapM f = .ok ys →
    (∀ x ∈ l, ∀ y, f x = .ok y → P y) → ∀ y ∈ ys, P y
  | [], ys, h, _ => by
    obtain rfl : [] = ys := by simpa [pure, Except.pure] using h
    simp
  | x :: l, ys, h, hp => by
    rw [List.mapM_cons] at h
    cases hx : f x with
    | error e => rw [hx] at h; simp [bind, Except.bind] at h
    | ok y =>
      cases hl : l.mapM f with
      | error e => rw [hx, hl] at h; simp [bind, Except.bind] at h
      | ok zs =>
        rw [hx, hl] at h
        obtain rfl : y :: zs = ys := by simpa [bind, Except.bind, pure, Except.pure] using h
        intro z hz
        rcases List.mem_cons.mp hz with rfl | hz
        · exact hp x (by simp) _ hx
        · exact mapM_all hl (fun a ha => hp a (by simp [ha])) z hz

theorem quotes_flatten_even {ls : List (List Char)} (h : ∀ l ∈ ls, quotes l % 2 = 0) : quotes ls.flatten % 2 = 0 := by
  induction ls with
  | nil => rfl
  | cons a as ih =>
    have h1 := h a (by simp)
    have h2 := ih fun l hl => h l (by simp [hl])
    rw [List.flatten_cons, quotes_append]
    omega

theorem quotesOf_even {kvs : List (List Char × List Char)} (h : ∀ kv ∈ kvs, quotes kv.1 = 0 ∧ quotes kv.2 % 2 = 0) : quotesOf kvs % 2 = 0 := by
  induction kvs with
  | nil => rfl
  | cons a as ih =>
    have h1 := h a (by simp)
    have h2 := ih fun l hl => h l (by simp [hl])
    simp only [quotesOf, List.map_cons, List.sum_cons] at h2 ⊢
    omega

theorem sum_even {l : List Nat} (h : ∀ x ∈ l, x % 2 = 0) : l.sum % 2 = 0 := by
  induction l with
  | nil => rfl
  | cons a as ih =>
    have h1 := h a (by simp)
    have h2 := ih fun l hl => h l (by simp [hl])
    rw [List.sum_cons]
    omega

/-- All texts of a label have an even number of quotation marks, the names have none. -/
structure Balanced (l : Label) : Prop where
  sd : l.sd ≠ '"'
  keywords : ∀ k ∈ l.keywords, ∀ kvs, k = some kvs → ∀ kv ∈ kvs, quotes kv.1 = 0 ∧ quotes kv.2 % 2 = 0
  naif : quotes l.naif % 2 = 0
  kernels : ∀ k ∈ l.kernels.getD [], quotes k % 2 = 0
  description : quotes l.description % 2 = 0
  history : ∀ d u r, l.history = some (d, u, r) → quotes d % 2 = 0 ∧ (∀ kv ∈ u, quotes kv.1 = 0 ∧ quotes kv.2 % 2 = 0) ∧ quotes r % 2 = 0
  series : ∀ kv ∈ l.series, quotes kv.1 = 0 ∧ quotes kv.2 % 2 = 0
  objectKeys : ∀ k ∈ l.objectKeys, quotes k = 0
  objectValues : ∀ vs ∈ l.objectValues, ∀ v ∈ vs, quotes v % 2 = 0

theorem objectText_even {l : Label} (h : Balanced l) {obj : Nat} {t : List Char}
    (ht : objectText l.npad1 l.sd l.objectKeys l.objectValues obj = .ok t) : quotes t % 2 = 0 := by
  unfold objectText at ht
  cases hl : (List.range l.objectKeys.length).mapM (objectLine l.npad1 l.sd l.objectKeys l.objectValues obj) with
  | error e => rw [hl] at ht; simp [bind, Except.bind] at ht
  | ok lines =>
    rw [hl] at ht
    have hev := mapM_all (P := fun y => quotes y % 2 = 0) hl (by
      intro k hk y hy
      rw [List.mem_range] at hk
      unfold objectLine at hy
      cases hv : (l.objectValues[k]?).bind (·[obj]?) with
      | none => rw [hv] at hy; simp at hy
      | some v =>
        rw [hv] at hy
        simp only at hy
        split at hy
        · obtain rfl : [] = y := by simpa using hy
          rfl
        · obtain rfl := Except.ok.inj hy
          rw [quotes_several h.sd _ _ _ (by decide)]
          simp only [quotes_append, quotes_ljust, quotes_spaces]
          have e1 : quotes (l.objectKeys.getD k []) = 0 := by
            apply h.objectKeys
            simp [List.getD, hk]
          have e2 : quotes v % 2 = 0 := by
            obtain ⟨vs, h1, h2⟩ := Option.bind_eq_some_iff.mp hv
            exact h.objectValues vs (List.mem_of_getElem? h1) v (List.mem_of_getElem? h2)
          have e3 : quotes ['=', ' '] = 0 := by decide
          omega)
    have := quotes_flatten_even hev
    simp only [bind, Except.bind, pure, Except.pure] at ht
    obtain rfl := Except.ok.inj ht
    simp only [quotes_append, quotes_ljust, quotes_cr]
    have e1 : quotes [' ', ' '] = 0 := by decide
    have e2 : quotes "OBJECT".toList = 0 := by decide
    have e3 : quotes "END_OBJECT".toList = 0 := by decide
    have e4 : quotes "= COLUMN".toList = 0 := by decide
    omega

/-- If all texts are balanced then the quotation marks of the label are, if and only if there is a history. -/
theorem C117_quotes_partial {l : Label} (h : Balanced l) {t : List Char} (ht : labelText l = .ok t) : quotes t % 2 = 0 ↔ l.history ≠ none := by
  unfold labelText at ht
  cases hk : kernelText l.npad0 l.kernels with
  | error e => rw [hk] at ht; simp [bind, Except.bind] at ht
  | ok kern =>
    rw [hk] at ht
    cases hv : objectCount l.objectValues with
    | error e => rw [hv] at ht; simp [bind, Except.bind] at ht
    | ok n =>
      rw [hv] at ht
      cases ho : (List.range n).mapM (objectText l.npad1 l.sd l.objectKeys l.objectValues) with
      | error e => simp [bind, Except.bind, ho] at ht
      | ok objs =>
        have hobj := quotes_flatten_even (mapM_all (P := fun y => quotes y % 2 = 0) ho fun k _ y hy => objectText_even h hy)
        simp only [bind, Except.bind, ho, pure, Except.pure] at ht
        obtain rfl := Except.ok.inj ht
        have k0 : quotes kern % 2 = 0 := by
          rw [quotes_kernels hk]
          apply sum_even
          intro x hx
          obtain ⟨y, hy, rfl⟩ := List.mem_map.mp hx
          exact h.kernels y hy
        have h0 : quotes (headerText l.npad0 l.keywords) % 2 = 0 := by
          rw [quotes_header]
          apply sum_even
          intro x hx
          obtain ⟨y, hy, rfl⟩ := List.mem_map.mp hx
          cases y with
          | none => rfl
          | some kvs => exact quotesOf_even (h.keywords _ hy kvs rfl)
        have n0 : quotes (if l.naif = [] then [] else statement l.npad0 "NAIF_TOOLKIT_VERSION".toList l.naif) % 2 = 0 := by
          split
          · rfl
          · rw [quotes_statement]
            have := h.naif
            have e : quotes "NAIF_TOOLKIT_VERSION".toList = 0 := by decide
            omega
        have s0 : quotes (seriesText l.npad1 l.sd l.series) % 2 = 0 := by
          rw [quotes_series _ h.sd]
          exact quotesOf_even h.series
        have d0 : quotes (severalLines l.sd (ljust l.npad0 "DESCRIPTION".toList ++ ['=', ' ']) [] l.description) % 2 = 0 := by
          rw [quotes_several h.sd _ _ _ rfl, quotes_append, quotes_ljust]
          have := h.description
          have e : quotes "DESCRIPTION".toList = 0 := by decide
          have e2 : quotes ['=', ' '] = 0 := by decide
          omega
        have e1 : quotes (statement (l.npad1 + 2) "END_OBJECT".toList "SERIES".toList) = 0 := by rw [quotes_statement]; decide
        have e2 : quotes "END".toList = 0 := by decide
        have hh : quotes (historyText l.npad0 l.sd l.history) % 2 = 0 ↔ l.history ≠ none := by
          have q1 : quotes ['"'] = 1 := by decide
          cases hy : l.history with
          | none => simp [historyText]; decide
          | some x =>
            obtain ⟨d, u, r⟩ := x
            obtain ⟨g1, g2, g3⟩ := h.history d u r hy
            have hu : quotes (u.flatMap fun kv => List.replicate 4 ' ' ++ statement 24 kv.1 kv.2) = quotesOf u := by
              clear g2 hy
              induction u with
              | nil => rfl
              | cons a as ih =>
                rw [List.flatMap_cons, quotes_append, ih, quotes_append, quotes_statement, quotes_spaces]
                simp [quotesOf]
            have hu2 := quotesOf_even g2
            have e3 : quotes "PROCESSING_HISTORY_TEXT".toList = 0 := by decide
            have e4 : quotes "User history:".toList = 0 := by decide
            have e5 : quotes ['=', ' '] = 0 := by decide
            simp only [historyText, quotes_append, quotes_several h.sd _ _ _ (rfl : quotes [] = 0), quotes_ljust, hu, quotes_cr, q1]
            constructor
            · intro _; simp
            · intro _; omega
        simp only [quotes_append, quotes_cr]
        rw [← hh]
        omega

/-- A small label. -/
def small (h : Option (List Char × List (List Char × List Char) × List Char)) : Label where
  npad0 := 20
  npad1 := 20
  sd := '|'
  keywords := [some [("PDS_VERSION_ID".toList, "PDS3".toList), ("PRODUCER_ID".toList, "\"TC2017\"".toList)], none]
  naif := "\"V.N0067\"".toList
  kernels := some ["\"a.bsp\"".toList, "\"b.tls\"".toList]
  description := "\"Two|lines\"".toList
  history := h
  series := [("OBJECT".toList, "SERIES".toList), ("NAME".toList, "\"OCCULTATION PROFILE\"".toList)]
  objectKeys := ["NAME".toList, "UNIT".toList]
  objectValues := [["\"RING RADIUS\"".toList], ["\"KILOMETER\"".toList]]

theorem small_balanced : Balanced (small none) ∧ Balanced (small (some ("This is a record".toList, [("User Name".toList, "me".toList)], []))) := by
  have hk : ∀ h, ∀ k ∈ (small h).keywords, ∀ kvs, k = some kvs → ∀ kv ∈ kvs, quotes kv.1 = 0 ∧ quotes kv.2 % 2 = 0 := by
    intro h k hk kvs e
    subst e
    simp only [small, List.mem_cons, Option.some.injEq, reduceCtorEq, List.not_mem_nil, or_false] at hk
    subst hk
    decide
  constructor
  · refine ⟨by decide, hk none, by decide, by decide, by decide, ?_, by decide, by decide, by decide⟩
    rintro d u r e
    simp [small] at e
  · refine ⟨by decide, hk _, by decide, by decide, by decide, ?_, by decide, by decide, by decide⟩
    rintro d u r e
    have e : ("This is a record".toList, [("User Name".toList, "me".toList)], []) = (d, u, r) := Option.some.inj e
    have h1 : d = "This is a record".toList := (congrArg Prod.fst e).symm
    have h2 : u = [("User Name".toList, "me".toList)] := (congrArg (fun x => x.2.1) e).symm
    have h3 : r = [] := (congrArg (fun x => x.2.2) e).symm
    subst h1 h2 h3
    decide

/-- Without a history a quotation mark is left over. -/
theorem C117_quotes_false : ∃ t, labelText (small none) = .ok t ∧ quotes t % 2 = 1 ∧
    (∃ a b, t = a ++ "DESCRIPTION         = \"Two\r\nlines\"\r\n\r\n\"\r\n\r\nOBJECT".toList ++ b) := by
  have ht : labelText (small none) = .ok ("PDS_VERSION_ID      = PDS3\r\nPRODUCER_ID         = \"TC2017\"\r\n\r\nNAIF_TOOLKIT_VERSION= \"V.N0067\"\r\nSPICE_FILE_NAME     = {\"a.bsp\",\r\n                       \"b.tls\"}\r\n\r\n".toList ++
      "DESCRIPTION         = \"Two\r\nlines\"\r\n\r\n\"\r\n\r\nOBJECT".toList ++
      "                = SERIES\r\n  NAME                = \"OCCULTATION PROFILE\"\r\n\r\n  OBJECT              = COLUMN\r\n    NAME              = \"RING RADIUS\"\r\n    UNIT              = \"KILOMETER\"\r\n  END_OBJECT          = COLUMN\r\n\r\nEND_OBJECT            = SERIES\r\n\r\nEND\r\n".toList) := by
    decide +kernel
  refine ⟨_, ht, ?_, _, _, rfl⟩
  have := C117_quotes_partial small_balanced.1 ht
  have h2 := mt this.mp (fun h => h rfl)
  omega

theorem takeWhile_stop {α : Type} {p : α → Bool} {a r : List α} {d : α} (h : ∀ c ∈ a, p c = true) (hd : p d = false) :
    (a ++ d :: r).takeWhile p = a ∧ (a ++ d :: r).dropWhile p = d :: r := by
  induction a with
  | nil => simp [hd]
  | cons x xs ih =>
    obtain ⟨h1, h2⟩ := ih fun c hc => h c (by simp [hc])
    simp [h x (by simp), h1, h2]

/-- One statement. -/
theorem read_statement {n pad : Nat} {k v rest : List Char} (hk1 : ∀ c ∈ k, c ≠ '=' ∧ c ≠ ' ' ∧ c ≠ '\r') (hv : ∀ c ∈ v, c ≠ '\r') :
    statements (n + 1) (statement pad k v ++ rest) = (k, v) :: statements n rest := by
  have e : statement pad k v ++ rest = (ljust pad k ++ ['=', ' '] ++ v) ++ '\r' :: ('\n' :: rest) := by simp [statement, cr]
  have hl : ∀ c ∈ ljust pad k, c ≠ '=' ∧ c ≠ '\r' := by
    intro c hc
    rcases List.mem_append.mp hc with h | h
    · exact ⟨(hk1 c h).1, (hk1 c h).2.2⟩
    · rw [(List.mem_replicate.mp h).2]
      decide
  have hall : ∀ c ∈ ljust pad k ++ ['=', ' '] ++ v, (c != '\r') = true := by
    intro c hc
    rw [bne_iff_ne]
    rcases List.mem_append.mp hc with h | h
    · rcases List.mem_append.mp h with h | h
      · exact (hl c h).2
      · simp only [List.mem_cons, List.not_mem_nil, or_false] at h
        rcases h with rfl | rfl <;> decide
    · exact hv c h
  obtain ⟨t1, t2⟩ := takeWhile_stop (r := '\n' :: rest) hall (by decide : ('\r' != '\r') = false)
  have e2 : ljust pad k ++ ['=', ' '] ++ v = ljust pad k ++ '=' :: (' ' :: v) := by simp
  obtain ⟨u1, u2⟩ := takeWhile_stop (r := ' ' :: v) (p := fun c => c != '=') (a := ljust pad k) (d := '=')
    (fun c hc => by rw [bne_iff_ne]; exact (hl c hc).1) (by decide)
  have hne : ljust pad k ++ '=' :: ' ' :: v ≠ [] := by simp
  have hfil : (ljust pad k).filter (· != ' ') = k := by
    rw [ljust, List.filter_append]
    have a1 : k.filter (· != ' ') = k := List.filter_eq_self.mpr fun c hc => by rw [bne_iff_ne]; exact (hk1 c hc).2.1
    have a2 : (List.replicate (pad - k.length) ' ').filter (· != ' ') = [] := by simp
    rw [a1, a2, List.append_nil]
  have hcons : ∃ x xs, (ljust pad k ++ ['=', ' '] ++ v) ++ '\r' :: ('\n' :: rest) = x :: xs := by
    cases h : (ljust pad k ++ ['=', ' '] ++ v) ++ '\r' :: ('\n' :: rest) with
    | nil => simp at h
    | cons x xs => exact ⟨x, xs, rfl⟩
  obtain ⟨x, xs, hx⟩ := hcons
  rw [e, hx, statements, ← hx]
  · simp only [t1, t2]
    simp only [e2, u1, u2, hfil, if_neg hne, List.drop_succ_cons, List.drop_zero]
  · simp

/-- The header of a label gives the keywords and the values back, in their order. -/
theorem C117_header {pad : Nat} {kws : List (Option (List (List Char × List Char)))}
    (h : ∀ kvs, some kvs ∈ kws → ∀ kv ∈ kvs, (∀ c ∈ kv.1, c ≠ '=' ∧ c ≠ ' ' ∧ c ≠ '\r') ∧ ∀ c ∈ kv.2, c ≠ '\r')
    {n : Nat} (hn : (headerText pad kws).length ≤ n) : statements n (headerText pad kws) = kws.flatMap fun k => k.getD [] := by
  have inner : ∀ (l : List (List Char × List Char)) (rest : List Char) (out : List (List Char × List Char)),
      (∀ kv ∈ l, (∀ c ∈ kv.1, c ≠ '=' ∧ c ≠ ' ' ∧ c ≠ '\r') ∧ ∀ c ∈ kv.2, c ≠ '\r') →
      (∀ n, rest.length ≤ n → statements n rest = out) →
      ∀ n, ((l.flatMap fun kv => statement pad kv.1 kv.2) ++ rest).length ≤ n →
        statements n ((l.flatMap fun kv => statement pad kv.1 kv.2) ++ rest) = l ++ out := by
    intro l
    induction l with
    | nil => intro rest out _ h n hn; exact h n hn
    | cons a as ih =>
      intro rest out hl hr n hn
      rw [List.flatMap_cons, List.append_assoc] at hn ⊢
      have hpos : 0 < (statement pad a.1 a.2).length := by simp [statement, cr]
      rw [List.length_append] at hn
      obtain ⟨m, rfl⟩ : ∃ m, n = m + 1 := ⟨n - 1, by omega⟩
      obtain ⟨h2, h3⟩ := hl a (by simp)
      rw [read_statement h2 h3, ih rest out (fun kv hkv => hl kv (by simp [hkv])) hr m (by omega)]
      rfl
  induction kws generalizing n with
  | nil => cases n <;> rfl
  | cons k ks ih =>
    have ih' : ∀ n, (headerText pad ks).length ≤ n → statements n (headerText pad ks) = ks.flatMap fun k => k.getD [] :=
      fun n hn => ih (fun kvs hk => h kvs (by simp [hk])) hn
    cases k with
    | none =>
      have e : headerText pad (none :: ks) = '\r' :: '\n' :: headerText pad ks := by simp [headerText, cr]
      rw [e] at hn ⊢
      obtain ⟨m, rfl⟩ : ∃ m, n = m + 1 := ⟨n - 1, by simp at hn; omega⟩
      rw [statements]
      · have c : ('\r' != '\r') = false := by decide
        simp only [List.takeWhile_cons, List.dropWhile_cons, c, Bool.false_eq_true, if_false, if_true, List.drop_succ_cons, List.drop_zero]
        rw [ih' m (by simp at hn; omega)]
        rfl
      · simp
    | some l =>
      have e : headerText pad (some l :: ks) = (l.flatMap fun kv => statement pad kv.1 kv.2) ++ headerText pad ks := by simp [headerText]
      rw [e] at hn ⊢
      rw [inner l _ _ (h l (by simp)) ih' n hn]
      rfl

example : statements 200 (headerText 20 (small none).keywords) = [("PDS_VERSION_ID".toList, "PDS3".toList), ("PRODUCER_ID".toList, "\"TC2017\"".toList)] ∧
    ∀ kvs, some kvs ∈ (small none).keywords → ∀ kv ∈ kvs, (∀ c ∈ kv.1, c ≠ '=' ∧ c ≠ ' ' ∧ c ≠ '\r') ∧ ∀ c ∈ kv.2, c ≠ '\r' := by
  refine ⟨by decide +kernel, ?_⟩
  intro kvs hk
  simp only [small, List.mem_cons, Option.some.injEq, reduceCtorEq, List.not_mem_nil, or_false] at hk
  subst hk
  decide +kernel

theorem squeeze_append (a b : List Char) : squeeze (a ++ b) = squeeze a ++ squeeze b := List.filter_append _ _

theorem squeeze_spaces (n : Nat) : squeeze (List.replicate n ' ') = [] := by simp [squeeze]

theorem squeeze_cr : squeeze cr = [] := by decide

theorem squeeze_ljust (n : Nat) (s : List Char) : squeeze (ljust n s) = squeeze s := by
  rw [ljust, squeeze_append, squeeze_spaces, List.append_nil]

theorem kernels_tail (pad : Nat) : ∀ {ks : List (List Char)}, ks ≠ [] → squeeze (kernelLines pad false false ks) = commas (ks.map squeeze)
  | [k], _ => by
    simp only [kernelLines, Bool.false_eq_true, if_false, squeeze_append, squeeze_spaces, squeeze_cr, List.nil_append, List.append_nil, List.map_cons,
      List.map_nil, commas]
  | k :: l :: ks, _ => by
    have ih := kernels_tail pad (ks := l :: ks) (by simp)
    have c : squeeze [','] = [','] := by decide
    rw [kernelLines]
    · simp only [Bool.false_eq_true, if_false, squeeze_append, squeeze_spaces, squeeze_cr, List.nil_append, List.append_nil, ih, c]
      have e : (k :: l :: ks).map squeeze = squeeze k :: (l :: ks).map squeeze := rfl
      rw [e, commas_cons (l := squeeze k) (ls := (l :: ks).map squeeze) (by simp)]
      simp
    · simp

theorem commas_close : ∀ {ks : List (List Char)}, ks ≠ [] → commas ((closeLast ks).map squeeze) = commas (ks.map squeeze) ++ ['}']
  | [k], _ => by
    have c : squeeze ['}'] = ['}'] := by decide
    simp [closeLast, commas, squeeze_append, c]
  | k :: l :: ks, _ => by
    have ih := commas_close (ks := l :: ks) (by simp)
    have hne : closeLast (l :: ks) ≠ [] := by cases ks <;> simp [closeLast]
    rw [closeLast]
    · have e : (k :: l :: ks).map squeeze = squeeze k :: (l :: ks).map squeeze := rfl
      rw [List.map_cons, commas_cons (by simpa using hne), ih, e, commas_cons (l := squeeze k) (ls := (l :: ks).map squeeze) (by simp)]
      simp
    · simp

/-- Kernels are listed in braces with commas between them. -/
theorem C117_kernels (pad : Nat) {ks : List (List Char)} (h : ks ≠ []) : ∃ t, kernelText pad (some ks) = .ok t ∧
    squeeze t = "SPICE_FILE_NAME={".toList ++ commas (ks.map squeeze) ++ ['}'] := by
  have c : squeeze [','] = [','] := by decide
  have c0 : squeeze ['=', ' '] = ['='] := by decide
  have c1 : squeeze "SPICE_FILE_NAME".toList = "SPICE_FILE_NAME".toList := by decide
  have c2 : ∀ k, squeeze ('{' :: k) = '{' :: squeeze k := fun k => squeeze_append ['{'] k
  have c3 : squeeze ['}'] = ['}'] := by decide
  have c4 : "SPICE_FILE_NAME={".toList = "SPICE_FILE_NAME".toList ++ ['=', '{'] := by decide
  match ks, h with
  | [k], _ =>
    refine ⟨_, rfl, ?_⟩
    simp only [closeLast, kernelLines, List.isEmpty_nil, if_true, squeeze_append, squeeze_ljust, squeeze_cr, List.append_nil, c0, c1, c2, c3, c4,
      List.map_cons, List.map_nil, commas]
    simp
  | k :: l :: ks, _ =>
    refine ⟨_, rfl, ?_⟩
    have hne : closeLast (l :: ks) ≠ [] := by cases ks <;> simp [closeLast]
    have hc := commas_close (ks := l :: ks) (by simp)
    have hcl : closeLast (('{' :: k) :: l :: ks) = ('{' :: k) :: closeLast (l :: ks) := rfl
    rw [hcl]
    cases hx : closeLast (l :: ks) with
    | nil => exact absurd hx hne
    | cons x xs =>
      rw [hx] at hc
      rw [kernelLines]
      · rw [List.isEmpty_cons]
        simp only [Bool.false_eq_true, if_false, if_true, squeeze_append, squeeze_ljust, squeeze_cr, List.append_nil, c, c0, c1, c2, c4,
          kernels_tail pad (ks := x :: xs) (by simp), hc]
        rw [List.map_cons (l := l :: ks), commas_cons (by simp)]
        simp
      · simp

example : ["\"a.bsp\"".toList, "\"b.tls\"".toList] ≠ [] ∧ kernelText 20 (some ["\"a.bsp\"".toList, "\"b.tls\"".toList]) =
    .ok "SPICE_FILE_NAME     = {\"a.bsp\",\r\n                       \"b.tls\"}\r\n".toList := by decide +kernel

/-- How an argument should be shown. -/
def shown (written : List (List Char)) (e : List Char × ArgVal) : List Char :=
  squeeze e.1 ++ ':' :: squeeze (match e.2 with
    | .text s => s
    | .hist => if e.1 ∈ written then "see history above".toList else "see history below".toList)

/-- The list of arguments is closed: if there is only one, then it is a short text; otherwise the last one is a history, or short, or contains a
comma. -/
def Closes : List (List Char × ArgVal) → Prop
  | [] => False
  | [e] => ∃ s, e.2 = .text s ∧ e.1.length + 1 + s.length ≤ 40
  | _ :: e :: es => ∀ s, ((e :: es).getLast (by simp)).2 = .text s →
      ((e :: es).getLast (by simp)).1.length + 1 + s.length ≤ 40 ∨ ',' ∈ s

theorem splitOn_length (c : Char) : ∀ s, 2 ≤ (splitOn c s).length ↔ c ∈ s
  | [] => by simp [splitOn]
  | x :: xs => by
    have ih := splitOn_length c xs
    have hne := List.length_pos_iff.mpr (splitOn_ne c xs)
    rw [splitOn]
    split
    · rename_i h
      simp only [List.length_cons, h, List.mem_cons, true_or, iff_true]
      omega
    · rename_i h
      rw [List.mem_cons]
      have : ¬ c = x := fun e => h e.symm
      cases hs : splitOn c xs with
      | nil => exact absurd hs (splitOn_ne c xs)
      | cons l ls =>
        rw [hs] at ih
        simpa [this] using ih

theorem sq_first (kwd key l e : List Char) : squeeze (List.replicate 4 ' ' ++ ljust 18 kwd ++ ['=', ' '] ++ ['{'] ++ key ++ [':', ' '] ++ l ++ e ++ cr) =
    squeeze kwd ++ ['=', '{'] ++ squeeze key ++ ':' :: squeeze l ++ squeeze e := by
  have c0 : squeeze ['=', ' '] = ['='] := by decide
  have c1 : squeeze ['{'] = ['{'] := by decide
  have c3 : squeeze [':', ' '] = [':'] := by decide
  simp only [squeeze_append, squeeze_spaces, squeeze_ljust, squeeze_cr, c0, c1, c3, List.nil_append, List.append_nil]
  simp

theorem sq_next (key l e : List Char) : squeeze (List.replicate 4 ' ' ++ List.replicate 21 ' ' ++ key ++ [':', ' '] ++ l ++ e ++ cr) =
    squeeze key ++ ':' :: squeeze l ++ squeeze e := by
  have c3 : squeeze [':', ' '] = [':'] := by decide
  simp only [squeeze_append, squeeze_spaces, squeeze_cr, c3, List.nil_append, List.append_nil]
  simp

theorem sq_cont (n : Nat) (l e : List Char) : squeeze (List.replicate 4 ' ' ++ List.replicate n ' ' ++ l ++ e ++ cr) = squeeze l ++ squeeze e := by
  simp only [squeeze_append, squeeze_spaces, squeeze_cr, List.nil_append, List.append_nil]

theorem sq_comma : squeeze [','] = [','] := by decide
theorem sq_brace : squeeze ['}'] = ['}'] := by decide

theorem long_tail (kwd key : List Char) (first last : Bool) (n : Nat) : ∀ (i : Nat) (ls : List (List Char)), 1 ≤ i → ls ≠ [] → n = i + ls.length →
    squeeze (longLines kwd key first last n i ls) = commas (ls.map squeeze) ++ [if last then '}' else ',']
  | i, [l], hi, _, hn => by
    have hn : i = n - 1 := by simp at hn; omega
    have h0 : ¬ i = 0 := by omega
    rw [longLines, longLines, List.append_nil, if_neg (fun h => h0 h.1), if_neg (fun h => h0 h.1)]
    cases last
    · rw [if_neg (by simp), sq_cont, sq_comma]; rfl
    · rw [if_pos ⟨hn, rfl⟩, sq_cont, sq_brace]; rfl
  | i, l :: m :: ls, hi, _, hn => by
    have ih := long_tail kwd key first last n (i + 1) (m :: ls) (by omega) (by simp) (by simp at hn ⊢; omega)
    have hn : ¬ i = n - 1 := by simp at hn; omega
    have h0 : ¬ i = 0 := by omega
    rw [longLines, squeeze_append, ih, if_neg (fun h => h0 h.1), if_neg (fun h => h0 h.1), if_neg (fun h => hn h.1), sq_cont, sq_comma]
    have e : (l :: m :: ls).map squeeze = squeeze l :: (m :: ls).map squeeze := rfl
    rw [e, commas_cons (l := squeeze l) (ls := (m :: ls).map squeeze) (by simp)]
    simp

/-- What comes before the first argument. -/
def opening (kwd : List Char) (first : Bool) : List Char := if first then squeeze kwd ++ ['=', '{'] else []

theorem squeeze_commas (ls : List (List Char)) : squeeze (commas ls) = commas (ls.map squeeze) := by
  induction ls with
  | nil => rfl
  | cons a as ih =>
    cases as with
    | nil => rfl
    | cons b bs =>
      have e : (a :: b :: bs).map squeeze = squeeze a :: (b :: bs).map squeeze := rfl
      rw [commas_cons (by simp), squeeze_append, e, commas_cons (l := squeeze a) (ls := (b :: bs).map squeeze) (by simp), ← ih]
      rfl

theorem longInput_eq {key : List Char} (hk : key ≠ "freespace_spm".toList) (kwd s : List Char) (first last : Bool) :
    squeeze (longInput kwd key s first last) = opening kwd first ++ squeeze key ++ ':' :: squeeze s ++
      [if last = true ∧ ',' ∈ s then '}' else ','] := by
  have h1 := splitOn_length ',' s
  have h2 := commas_splitOn s
  unfold longInput
  cases hs : splitOn ',' s with
  | nil => exact absurd hs (splitOn_ne _ _)
  | cons l ls =>
    rw [hs] at h1 h2
    have first_line : ∀ t, squeeze (if 0 = 0 ∧ first = true then
          List.replicate 4 ' ' ++ ljust 18 kwd ++ ['=', ' '] ++ ['{'] ++ key ++ [':', ' '] ++ l ++
            (if key = "freespace_spm".toList then [] else [',']) ++ cr
        else if 0 = 0 ∧ ¬ first = true then List.replicate 4 ' ' ++ List.replicate 21 ' ' ++ key ++ [':', ' '] ++ l ++ [','] ++ cr
        else t) = opening kwd first ++ squeeze key ++ ':' :: squeeze l ++ [','] := by
      intro t
      cases first
      · rw [if_neg (by simp), if_pos (by simp), sq_next, sq_comma]
        simp [opening]
      · rw [if_pos (by simp), if_neg hk, sq_first, sq_comma]
        simp [opening]
    simp only
    rw [longLines, squeeze_append, first_line]
    cases ls with
    | nil =>
      have hc : ¬ ',' ∈ s := by rw [← h1]; simp
      rw [if_neg (fun h => hc h.2), longLines]
      rw [commas] at h2
      rw [h2]
      simp [squeeze]
    | cons m ms =>
      have hc : ',' ∈ s := by rw [← h1]; simp
      rw [long_tail kwd key first last _ 1 (m :: ms) le_rfl (by simp) (by simp; omega), ← squeeze_commas]
      conv_rhs => rw [← h2, commas_cons (by simp)]
      have e : squeeze (l ++ ',' :: commas (m :: ms)) = squeeze l ++ ',' :: squeeze (commas (m :: ms)) := by
        rw [squeeze_append]; rfl
      rw [e]
      cases last <;> simp [hc]

/-- The character after argument `i` of `n`. -/
def after (n i : Nat) (e : List Char × ArgVal) : Char :=
  match e.2 with
  | .hist => if i = n - 1 ∧ i ≠ 0 then '}' else ','
  | .text s => if i = n - 1 ∧ (e.1.length + 1 + s.length ≤ 40 ∨ i ≠ 0 ∧ ',' ∈ s) then '}' else ','

theorem sq_open (kwd key l e : List Char) : squeeze (List.replicate 4 ' ' ++ ljust 18 kwd ++ ['=', ' '] ++ ['{'] ++ key ++ [':', ' '] ++ l ++ e ++ cr) =
    opening kwd true ++ (squeeze key ++ ':' :: squeeze l) ++ squeeze e := by
  rw [sq_first, opening, if_pos rfl]
  simp only [List.append_assoc, List.cons_append]

theorem sq_later (kwd key l e : List Char) : squeeze (List.replicate 4 ' ' ++ List.replicate 21 ' ' ++ key ++ [':', ' '] ++ l ++ e ++ cr) =
    opening kwd false ++ (squeeze key ++ ':' :: squeeze l) ++ squeeze e := by
  rw [sq_next, opening, if_neg (by decide), List.nil_append]

theorem longInput_eq' {key : List Char} (hk : key ≠ "freespace_spm".toList) (kwd s : List Char) (first last : Bool) :
    squeeze (longInput kwd key s first last) = opening kwd first ++ (squeeze key ++ ':' :: squeeze s) ++
      [if last = true ∧ ',' ∈ s then '}' else ','] := by
  rw [longInput_eq hk]
  simp only [List.append_assoc]

theorem argText_eq (kwd : List Char) (written : List (List Char)) (n i : Nat) {e : List Char × ArgVal} (hk : e.1 ≠ "freespace_spm".toList) :
    squeeze (argText kwd written n i e) = opening kwd (decide (i = 0)) ++ shown written e ++ [after n i e] := by
  obtain ⟨key, v⟩ := e
  cases v with
  | hist =>
    simp only [argText, shown, after]
    generalize (if key ∈ written then "see history above".toList else "see history below".toList) = p
    by_cases h0 : i = 0
    · rw [if_pos h0, sq_open, sq_comma, decide_eq_true h0, if_neg (fun h => h.2 h0)]
    · rw [if_neg h0, decide_eq_false h0]
      by_cases h1 : i = n - 1
      · rw [if_pos h1, sq_later kwd, sq_brace, if_pos ⟨h1, h0⟩]
      · rw [if_neg h1, sq_later kwd, sq_comma, if_neg (fun h => h1 h.1)]
  | text s =>
    simp only [argText, shown, after]
    by_cases hl : key.length + 1 + s.length > 40
    · have hl' : ¬ key.length + 1 + s.length ≤ 40 := by omega
      by_cases h0 : i = 0
      · rw [if_pos h0, if_pos hl, longInput_eq' hk, decide_eq_true h0, if_neg (fun h => Bool.noConfusion h.1),
          if_neg (fun h => h.2.elim hl' (fun h => h.1 h0))]
      · rw [if_neg h0, decide_eq_false h0]
        by_cases h1 : i = n - 1
        · rw [if_pos h1, if_pos hl, longInput_eq' hk]
          by_cases hc : ',' ∈ s
          · rw [if_pos ⟨rfl, hc⟩, if_pos ⟨h1, .inr ⟨h0, hc⟩⟩]
          · rw [if_neg (fun h => hc h.2), if_neg (fun h => h.2.elim hl' (fun h => hc h.2))]
        · rw [if_neg h1, if_pos hl, longInput_eq' hk, if_neg (fun h => Bool.noConfusion h.1), if_neg (fun h => h1 h.1)]
    · have hl' : key.length + 1 + s.length ≤ 40 := by omega
      by_cases h0 : i = 0
      · rw [if_pos h0, if_neg hl, sq_open, decide_eq_true h0]
        by_cases h1 : i = n - 1
        · rw [if_pos h1, sq_brace, if_pos ⟨h1, .inl hl'⟩]
        · rw [if_neg h1, sq_comma, if_neg (fun h => h1 h.1)]
      · rw [if_neg h0, decide_eq_false h0]
        by_cases h1 : i = n - 1
        · rw [if_pos h1, if_neg hl, sq_later kwd, sq_brace, if_pos ⟨h1, .inl hl'⟩]
        · rw [if_neg h1, if_neg hl, sq_later kwd, sq_comma, if_neg (fun h => h1 h.1)]

theorem args_tail (kwd : List Char) (written : List (List Char)) (n : Nat) : ∀ (i : Nat) (es : List (List Char × ArgVal)) (hne : es ≠ []), n = i + es.length →
    (∀ e ∈ es, e.1 ≠ "freespace_spm".toList) →
    squeeze (argsFrom kwd written n i es) = opening kwd (decide (i = 0)) ++ commas (es.map (shown written)) ++ [after n (n - 1) (es.getLast hne)]
  | i, [e], _, hn, hk => by
    have hn : n - 1 = i := by simp at hn; omega
    rw [argsFrom, argsFrom, List.append_nil, argText_eq _ _ _ _ (hk e (by simp)), hn]
    rfl
  | i, e :: f :: es, _, hn, hk => by
    have ih := args_tail kwd written n (i + 1) (f :: es) (by simp) (by simp at hn ⊢; omega) fun g hg => hk g (by simp [hg])
    have hn : ¬ i = n - 1 := by simp at hn; omega
    have ha : after n i e = ',' := by
      unfold after
      cases e.2 <;> simp [hn]
    have em : (e :: f :: es).map (shown written) = shown written e :: (f :: es).map (shown written) := rfl
    have eg : (e :: f :: es).getLast (by simp) = (f :: es).getLast (by simp) := List.getLast_cons (by simp)
    rw [argsFrom, squeeze_append, argText_eq _ _ _ _ (hk e (by simp)), ih, ha, em,
      commas_cons (l := shown written e) (ls := (f :: es).map (shown written)) (by simp), eg]
    simp [opening]

/-- Arguments are shown in their order, with braces and commas; the closing brace is there if and only if `Closes`. -/
theorem C117_args_partial {kwd : List Char} {written : List (List Char)} {es : List (List Char × ArgVal)} (hne : es ≠ [])
    (hk : ∀ e ∈ es, e.1 ≠ "freespace_spm".toList) :
    (Closes es → squeeze (argsText kwd written es) = squeeze kwd ++ ['=', '{'] ++ commas (es.map (shown written)) ++ ['}']) ∧
    (¬ Closes es → squeeze (argsText kwd written es) = squeeze kwd ++ ['=', '{'] ++ commas (es.map (shown written)) ++ [',']) := by
  have h := args_tail kwd written es.length 0 es hne (by simp) hk
  have ho : opening kwd (decide (0 = 0)) = squeeze kwd ++ ['=', '{'] := rfl
  rw [ho] at h
  have hcl : after es.length (es.length - 1) (es.getLast hne) = '}' ↔ Closes es := by
    match es, hne with
    | [(key, v)], _ =>
      cases v <;> simp [after, Closes]
    | e :: f :: es, _ =>
      have eg : (e :: f :: es).getLast (by simp) = (f :: es).getLast (by simp) := List.getLast_cons (by simp)
      rw [eg]
      simp only [Closes]
      generalize (f :: es).getLast (by simp) = g
      obtain ⟨key, v⟩ := g
      have h0 : ¬ (e :: f :: es).length - 1 = 0 := by simp
      cases v with
      | hist => simp [after]
      | text s =>
        by_cases hc : ',' ∈ s <;> simp [after, hc]
  have hor : after es.length (es.length - 1) (es.getLast hne) = '}' ∨ after es.length (es.length - 1) (es.getLast hne) = ',' := by
    unfold after
    split <;> split <;> simp
  rw [argsText, h]
  constructor
  · intro hc; rw [hcl.mpr hc]
  · intro hc; rw [hor.resolve_left fun e => hc (hcl.mp e)]

/-- The arguments of an `RSRReader`. -/
def readerArgs : List (List Char × ArgVal) :=
  [("rsr_file".toList, .text "../data/co-s-rss-1-sroc1-v10/cors_0727/S10SROE2005123_0740NNNX43RD.2A1".toList)]

/-- The arguments of a calibration: two histories and a text. -/
def calArgs : List (List Char × ArgVal) := [("rsr_inst".toList, .hist), ("geo_inst".toList, .hist), ("pnf_order".toList, .text "3".toList)]

example : calArgs ≠ [] ∧ (∀ e ∈ calArgs, e.1 ≠ "freespace_spm".toList) ∧ Closes calArgs := by
  refine ⟨by decide, by decide, ?_⟩
  intro s hs
  cases hs
  left
  decide

/-- False: the arguments of a reader, a single long path, are opened with a brace that nothing closes. -/
theorem C117_args_false : ¬ ∀ (kwd : List Char) (written : List (List Char)) (es : List (List Char × ArgVal)), es ≠ [] →
    squeeze (argsText kwd written es) = squeeze kwd ++ ['=', '{'] ++ commas (es.map (shown written)) ++ ['}'] := by
  intro h
  have := h "Positional Args".toList [] readerArgs (by decide)
  revert this
  decide +kernel

/-- A single history is not closed either, nor is a long last value without a comma. -/
theorem C117_open : ¬ Closes [("rsr_inst".toList, .hist)] ∧ ¬ Closes readerArgs ∧ ¬ Closes (("verbose".toList, .text "True".toList) :: readerArgs) := by
  refine ⟨?_, ?_, ?_⟩
  · rintro ⟨s, h, _⟩; cases h
  · rintro ⟨s, h, hl⟩
    cases h
    revert hl
    decide
  · intro h
    have := h _ rfl
    revert this
    decide +kernel

end Verif.Pds
