import Verif.Model.PyArgs
import Mathlib.Data.List.Perm.Basic
import Mathlib.Data.List.Nodup
import Mathlib.Data.List.Perm.Subperm
import Mathlib.Tactic.NormNum

/-!
# C133: the arguments of `DiffractionCorrection` and `ExtractCSVData`
-/
namespace Verif.Args
namespace Spec

/-- Numbers and Booleans are numbers, only strings are strings, everything is an object and has a truth value. -/
def Fits : Kind → Val → Prop
  | .O, _ => True
  | .p, _ => True
  | .d, v => (∃ q, v = .num q) ∨ ∃ b, v = .bool b
  | .s, v => ∃ t, v = .str t

/-- No two arguments for the same parameter, no unknown ones, not too many positional ones, and each of the right kind. -/
structure Good (params : List (String × Kind)) (nPos : Nat) (c : Call) : Prop where
  few : c.pos.length ≤ nPos
  known : ∀ k ∈ c.kw, ∃ (i : Nat) (p : String × Kind), params[i]? = some p ∧ p.1 = k.1 ∧ c.pos.length ≤ i ∧ Fits p.2 k.2
  fits : ∀ (i : Nat) (v : Val) (p : String × Kind), c.pos[i]? = some v → params[i]? = some p → Fits p.2 v

/-- The name by which a user sets a variable. -/
def userName : Field → String
  | .DLPInst => "dlp"
  | .input_resolution_km => "resolution"
  | .rngreq => "rng"
  | .wtype => "wtype"
  | .use_fwd => "use_fwd"
  | .use_norm => "use_norm"
  | .verbose => "verbose"
  | .bfac => "bfac"
  | .sigma => "sigma"
  | .psitype => "psitype"
  | .resolution_factor => "resolution_factor"
  | .eccentricity => "eccentricity"
  | .periapse => "periapse"
  | .perturb => "perturb"

/-- The argument that a call gives for a variable. -/
def argument (c : Call) (f : Field) : Option Val :=
  match f, c.pos with
  | .DLPInst, v :: _ => some v
  | .input_resolution_km, _ :: v :: _ => some v
  | _, _ => (c.kw.find? fun k => k.1 = userName f).map Prod.snd

/-- Switches hold the truth value of their argument. -/
def truth : Val → Bool
  | .num q => q ≠ 0
  | .str t => t ≠ ""
  | .bool b => b
  | .obj _ => true

/-- What a variable holds when the user gave `v`. -/
def held (f : Field) (v : Val) : Val :=
  match f with
  | .use_fwd | .use_norm | .verbose | .bfac => .bool (truth v)
  | .input_resolution_km | .sigma | .resolution_factor | .eccentricity | .periapse =>
    match v with
    | .bool true => .num 1
    | .bool false => .num 0
    | v => v
  | _ => v

/-- The documented values of arguments that are not given. -/
def default : Field → Option Val
  | .DLPInst => none
  | .input_resolution_km | .eccentricity | .periapse => some (.num 0)
  | .rngreq => some (.str "all")
  | .wtype => some (.str "kbmd20")
  | .psitype => some (.str "fresnel4")
  | .use_fwd | .verbose => some (.bool false)
  | .use_norm | .bfac => some (.bool true)
  | .sigma => some (.num (1 / 5000000000000))
  | .resolution_factor => some (.num (75 / 100))
  | .perturb => some (.obj 0)

end Spec

theorem conv_fits (k : Kind) (v : Val) : (conv k v).isSome ↔ Spec.Fits k v := by
  cases k <;> cases v <;> simp [conv, Spec.Fits]

theorem lookup_mem {l : List (String × Val)} (h : (l.map Prod.fst).Nodup) (a : String) (v : Val) :
    l.lookup a = some v ↔ (a, v) ∈ l := by
  induction l with
  | nil => simp
  | cons x l ih =>
    obtain ⟨b, w⟩ := x
    simp only [List.map_cons, List.nodup_cons] at h
    rw [List.lookup_cons]
    by_cases e : a = b
    · subst e
      simp only [BEq.rfl, Option.some.injEq, List.mem_cons, Prod.mk.injEq, true_and]
      constructor
      · intro h'; exact Or.inl h'.symm
      · rintro (h' | h')
        · exact h'.symm
        · exact absurd (List.mem_map_of_mem (f := Prod.fst) h') h.1
    · have : (a == b) = false := by simpa using e
      simp only [this, List.mem_cons, Prod.mk.injEq, e, false_and, false_or]
      exact ih h.2

theorem lookup_find (l : List (String × Val)) (a : String) :
    l.lookup a = (l.find? fun k => k.1 = a).map Prod.snd := by
  induction l with
  | nil => rfl
  | cons x l ih =>
    obtain ⟨b, w⟩ := x
    rw [List.lookup_cons, List.find?_cons]
    by_cases e : a = b
    · subst e; simp
    · have h1 : (a == b) = false := by simpa using e
      have h2 : ¬ b = a := fun h => e h.symm
      simp [h1, h2, ih]

/-- What is stored for one parameter. -/
def slot (c : Call) (i : Nat) (p : String × Kind) : Option (Option Val) :=
  match given c i p.1 with
  | none => none
  | some none => some none
  | some (some v) => (conv p.2 v).map some

theorem parseFrom_cons (c : Call) (i : Nat) (p : String × Kind) (ps : List (String × Kind)) :
    parseFrom c i (p :: ps) =
      match slot c i p, parseFrom c (i + 1) ps with
      | some r, some rs => some (r :: rs)
      | _, _ => none := by
  obtain ⟨name, kind⟩ := p
  rw [parseFrom]
  unfold slot
  dsimp only
  rcases given c i name with _ | _ | v
  · rfl
  · cases h : parseFrom c (i + 1) ps <;> simp [h]
  · cases h : conv kind v <;> cases h' : parseFrom c (i + 1) ps <;> simp [h, h']

theorem parseFrom_some (c : Call) (ps : List (String × Kind)) (i : Nat) :
    (parseFrom c i ps).isSome ↔ ∀ (j : Nat) (p : String × Kind), ps[j]? = some p → (slot c (i + j) p).isSome := by
  induction ps generalizing i with
  | nil => simp [parseFrom]
  | cons p ps ih =>
    rw [parseFrom_cons]
    have key := ih (i + 1)
    constructor
    · intro h j q hq
      rcases hs : slot c i p with _ | r
      · simp [hs] at h
      rcases hr : parseFrom c (i + 1) ps with _ | rs
      · simp [hs, hr] at h
      cases j with
      | zero => simp at hq; subst hq; simp [hs]
      | succ j =>
        have := key.1 (by simp [hr]) j q (by simpa using hq)
        rwa [show i + (j + 1) = i + 1 + j by omega]
    · intro h
      have h0 := h 0 p (by simp)
      have h1 := key.2 fun j q hq => by
        have := h (j + 1) q (by simpa using hq)
        rwa [show i + 1 + j = i + (j + 1) by omega]
      obtain ⟨r, hr⟩ := Option.isSome_iff_exists.1 h0
      obtain ⟨rs, hrs⟩ := Option.isSome_iff_exists.1 h1
      simp only [Nat.add_zero] at hr
      simp [hr, hrs]

theorem kw_count {s : Sig} {c : Call} (hk : (c.kw.map Prod.fst).Nodup) (hd : (s.params.map Prod.fst).Nodup)
    (h : ∀ k ∈ c.kw, ∃ (i : Nat) (p : String × Kind), s.params[i]? = some p ∧ p.1 = k.1 ∧ c.pos.length ≤ i)
    (hp : c.pos.length ≤ s.params.length) : c.pos.length + c.kw.length ≤ s.params.length := by
  have sub : c.kw.map Prod.fst ⊆ (s.params.drop c.pos.length).map Prod.fst := by
    intro a ha
    obtain ⟨k, hkm, rfl⟩ := List.mem_map.1 ha
    obtain ⟨i, p, hi, hpk, hle⟩ := h k hkm
    rw [← hpk]
    apply List.mem_map_of_mem
    rw [List.mem_iff_getElem?]
    exact ⟨i - c.pos.length, by rw [List.getElem?_drop]; rwa [show c.pos.length + (i - c.pos.length) = i by omega]⟩
  have := (List.subperm_of_subset hk sub).length_le
  simp only [List.length_map, List.length_drop] at this
  omega

/-- **C133.** For any list of distinct parameters, a call is accepted exactly if its arguments are good. -/
theorem C133_accept (s : Sig) (c : Call) (hd : (s.params.map Prod.fst).Nodup) (hn : s.nPos ≤ s.params.length)
    (hk : (c.kw.map Prod.fst).Nodup) : (parseArgs s c).isSome ↔ Spec.Good s.params s.nPos c := by
  have uniq : ∀ (i j : Nat) (p q : String × Kind), s.params[i]? = some p → s.params[j]? = some q → p.1 = q.1 → i = j := by
    intro i j p q hi hj e
    have hi' : i < (s.params.map Prod.fst).length := by
      rw [List.length_map]; exact (List.getElem?_eq_some_iff.1 hi).1
    apply (List.nodup_iff_getElem?_ne_getElem?.1 hd |> fun _ => List.getElem?_inj hi' hd).1
    rw [List.getElem?_map, List.getElem?_map, hi, hj]
    simp [e]
  constructor
  · intro h
    unfold parseArgs at h
    split at h
    · simp at h
    split at h
    · simp at h
    split at h
    · simp at h
    rename_i h1 h2 h3
    rw [parseFrom_some] at h
    have few : c.pos.length ≤ s.nPos := by omega
    refine ⟨few, ?_, ?_⟩
    · intro k hkm
      have : s.params.any (fun p => p.1 == k.1) = true := by
        by_contra hc
        apply h3
        rw [List.any_eq_true]
        refine ⟨k, hkm, ?_⟩
        rw [Bool.not_eq_true', Bool.eq_false_iff]
        exact hc
      obtain ⟨p, hp, hpk⟩ := List.any_eq_true.1 this
      have hpk' : p.1 = k.1 := by simpa using hpk
      obtain ⟨i, hi⟩ := List.mem_iff_getElem?.1 hp
      have hs := h i p hi
      rw [Nat.zero_add] at hs
      have lk : c.kw.lookup p.1 = some k.2 := (lookup_mem hk _ _).2 (by rw [hpk']; exact hkm)
      rcases hpos : c.pos[i]? with _ | v
      · refine ⟨i, p, hi, hpk', by simpa using hpos, ?_⟩
        rw [← conv_fits]
        simpa [slot, given, hpos, lk] using hs
      · simp [slot, given, hpos, lk] at hs
    · intro i v p hv hp
      have hs := h i p hp
      rw [Nat.zero_add] at hs
      rw [← conv_fits]
      rcases lk : c.kw.lookup p.1 with _ | w
      · simpa [slot, given, hv, lk] using hs
      · simp [slot, given, hv, lk] at hs
  · rintro ⟨few, known, fits⟩
    have cnt := kw_count (s := s) hk hd
      (fun k hkm => by obtain ⟨i, p, a, b, d, _⟩ := known k hkm; exact ⟨i, p, a, b, d⟩) (by omega)
    unfold parseArgs
    rw [if_neg (by omega), if_neg (by omega), if_neg]
    · rw [parseFrom_some]
      intro i p hi
      rw [Nat.zero_add]
      rcases hpos : c.pos[i]? with _ | v
      · rcases lk : c.kw.lookup p.1 with _ | w
        · simp [slot, given, hpos, lk]
        · obtain ⟨j, q, hj, hq, _, hf⟩ := known _ ((lookup_mem hk _ _).1 lk)
          have := uniq j i q p hj hi hq
          subst this
          rw [hi] at hj
          cases hj
          have := (conv_fits p.2 w).2 hf
          simpa [slot, given, hpos, lk] using this
      · rcases lk : c.kw.lookup p.1 with _ | w
        · have := (conv_fits p.2 v).2 (fits i v p hpos hi)
          simpa [slot, given, hpos, lk] using this
        · obtain ⟨j, q, hj, hq, hle, _⟩ := known _ ((lookup_mem hk _ _).1 lk)
          have := uniq j i q p hj hi hq
          have hlt := (List.getElem?_eq_some_iff.1 hpos).1
          omega
    · intro hc
      obtain ⟨k, hkm, hno⟩ := List.any_eq_true.1 hc
      obtain ⟨i, p, hi, hpk, _⟩ := known k hkm
      have hp : p ∈ s.params := List.mem_of_getElem? hi
      have : s.params.any (fun p => p.1 == k.1) = true := List.any_eq_true.2 ⟨p, hp, by simpa using hpk⟩
      simp [this] at hno

example : (parseArgs diffSig ⟨[.obj 7, .num 1], [("psitype", .str "newton"), ("bfac", .num 0)]⟩).isSome = true := by decide +kernel
example : (parseArgs diffSig ⟨[.obj 7, .num 1], [("resolution", .num 2)]⟩).isSome = false := by decide +kernel
example : (parseArgs csvSig ⟨[.str "g", .str "c", .str "d"], [("tau", .num 1)]⟩).isSome = false := by decide +kernel

/-- **C133.** An unknown keyword is refused, whatever the values are. -/
theorem C133_unknown (s : Sig) (c : Call) (name : String) (h : name ∈ c.kw.map Prod.fst) (hn : name ∉ s.params.map Prod.fst) :
    parseArgs s c = none := by
  unfold parseArgs
  split
  · rfl
  split
  · rfl
  rw [if_pos]
  obtain ⟨k, hk, rfl⟩ := List.mem_map.1 h
  rw [List.any_eq_true]
  refine ⟨k, hk, ?_⟩
  rw [Bool.not_eq_true', Bool.eq_false_iff]
  intro hc
  obtain ⟨p, hp, e⟩ := List.any_eq_true.1 hc
  exact hn (List.mem_map.2 ⟨p, hp, by simpa using e⟩)

example : parseArgs diffSig ⟨[.obj 7, .num 1], [("write_file", .bool true)]⟩ = none :=
  C133_unknown _ _ "write_file" (by decide) (by decide +kernel)

/-- **C133.** The order of the keywords does not matter. -/
theorem C133_order (s : Sig) (pos : List Val) (kw kw' : List (String × Val)) (hp : kw.Perm kw') (hk : (kw.map Prod.fst).Nodup) :
    parseArgs s ⟨pos, kw⟩ = parseArgs s ⟨pos, kw'⟩ := by
  have hk' : (kw'.map Prod.fst).Nodup := (hp.map Prod.fst).nodup_iff.1 hk
  have lk : ∀ a, kw.lookup a = kw'.lookup a := by
    intro a
    apply Option.ext
    intro v
    rw [lookup_mem hk, lookup_mem hk', hp.mem_iff]
  have pf : ∀ (ps : List (String × Kind)) (i : Nat), parseFrom ⟨pos, kw⟩ i ps = parseFrom ⟨pos, kw'⟩ i ps := by
    intro ps
    induction ps with
    | nil => intro i; rfl
    | cons p ps ih =>
      intro i
      rw [parseFrom_cons, parseFrom_cons, ih]
      simp only [slot, given, lk]
  have an : (kw.any fun k => !(s.params.any fun p => p.1 == k.1)) = kw'.any fun k => !(s.params.any fun p => p.1 == k.1) := by
    rw [Bool.eq_iff_iff, List.any_eq_true, List.any_eq_true]
    simp only [hp.mem_iff]
  unfold parseArgs
  simp only [hp.length_eq, an, pf]

example : parseArgs diffSig ⟨[.obj 7, .num 1], [("wtype", .str "rect"), ("sigma", .num 0)]⟩ =
    parseArgs diffSig ⟨[.obj 7, .num 1], [("sigma", .num 0), ("wtype", .str "rect")]⟩ :=
  C133_order _ _ _ _ (List.Perm.swap _ _ _) (by decide)

/-- The slots of the fourteen parameters. -/
theorem parse_slots {c : Call} {vs : List (Option Val)} (h : parseArgs diffSig c = some vs) :
    c.pos.length ≤ 2 ∧ vs.length = 14 ∧
      ∀ (i : Nat) (p : String × Kind), diffSig.params[i]? = some p → slot c i p = (vs[i]?) := by
  have general : ∀ (ps : List (String × Kind)) (i : Nat) (ws : List (Option Val)), parseFrom c i ps = some ws →
      ws.length = ps.length ∧ ∀ (j : Nat) (p : String × Kind), ps[j]? = some p → slot c (i + j) p = ws[j]? := by
    intro ps
    induction ps with
    | nil => intro i ws hw; simp [parseFrom] at hw; subst hw; simp
    | cons p ps ih =>
      intro i ws hw
      rw [parseFrom_cons] at hw
      rcases hs : slot c i p with _ | r
      · simp [hs] at hw
      rcases hr : parseFrom c (i + 1) ps with _ | rs
      · simp [hs, hr] at hw
      simp only [hs, hr, Option.some.injEq] at hw
      subst hw
      obtain ⟨hl, hj⟩ := ih (i + 1) rs hr
      refine ⟨by simp [hl], ?_⟩
      intro j q hq
      cases j with
      | zero => simp at hq; subst hq; simpa using hs
      | succ j =>
        rw [show i + (j + 1) = i + 1 + j by omega, hj j q (by simpa using hq)]
        simp
  unfold parseArgs at h
  split at h
  · simp at h
  split at h
  · simp at h
  split at h
  · simp at h
  rename_i _ h2 _
  obtain ⟨hl, hj⟩ := general _ _ _ h
  refine ⟨by simpa [diffSig] using h2, hl, ?_⟩
  intro i p hp
  have := hj i p hp
  rwa [Nat.zero_add] at this

/-- Position of each variable among the parameters. -/
def place : Field → Nat
  | .DLPInst => 0
  | .input_resolution_km => 1
  | .rngreq => 2
  | .wtype => 3
  | .use_fwd => 4
  | .use_norm => 5
  | .verbose => 6
  | .bfac => 7
  | .sigma => 8
  | .psitype => 9
  | .resolution_factor => 10
  | .eccentricity => 11
  | .periapse => 12
  | .perturb => 13

theorem store_place (vs : List (Option Val)) (hl : vs.length = 14) (m : Field → Option Val) (f : Field) :
    store addresses vs m f = match vs[place f]? with
      | some (some v) => some v
      | _ => m f := by
  match vs, hl with
  | [a0, a1, a2, a3, a4, a5, a6, a7, a8, a9, a10, a11, a12, a13], _ =>
    have one : ∀ (g : Field) (gs : List Field) (a : Option Val) (as : List (Option Val)) (n : Field → Option Val),
        store (g :: gs) (a :: as) n = store gs as (fun x => if x = g then (match a with | some v => some v | none => n x) else n x) := by
      intro g gs a as n
      cases a with
      | none => simp [store]
      | some v => rfl
    have nil : ∀ n : Field → Option Val, store [] [] n = n := fun _ => rfl
    simp only [addresses, one, nil]
    cases f <;> simp [place] <;> (split <;> simp_all)

/-- **C133.** Every variable gets the argument that the user gave under its own name, and otherwise the documented value. -/
theorem C133_values (c : Call) (m : Field → Option Val) (h : construct c = .with m) (f : Field) :
    m f = match Spec.argument c f with
      | some v => some (Spec.held f v)
      | none => Spec.default f := by
  unfold construct at h
  rcases hp : parseArgs diffSig c with _ | vs
  · simp [hp] at h
  obtain ⟨few, hl, hs⟩ := parse_slots hp
  have hm : m = store addresses vs initial := by
    simp only [hp] at h
    split at h
    · cases h
    · injection h with h; exact h.symm
  subst hm
  rw [store_place vs hl]
  have hini : initial f = Spec.default f := by
    cases f <;> first | rfl | (simp only [initial, Spec.default]; norm_num)
  have harg : ∃ k, diffSig.params[place f]? = some (Spec.userName f, k) ∧
      (∀ v w, conv k v = some w → w = Spec.held f v) := by
    cases f
    all_goals
      refine ⟨_, rfl, ?_⟩
      intro v w hc
      cases v <;> simp_all [conv, Spec.held, Spec.truth]
    all_goals
      first
      | exact hc.symm
      | (rename_i b; cases b <;> simp_all)
      | skip
  obtain ⟨k, hk, hconv⟩ := harg
  have hslot := hs _ _ hk
  have hgiven : given c (place f) (Spec.userName f) = none ∨ given c (place f) (Spec.userName f) = some (Spec.argument c f) := by
    unfold given Spec.argument
    rw [lookup_find]
    rcases hpos : c.pos with _ | ⟨a, _ | ⟨b, _ | ⟨d, t⟩⟩⟩
    · right; cases f <;> simp
    · cases f <;> simp [place] <;> (split <;> simp_all)
    · cases f <;> simp [place] <;> (split <;> simp_all)
    · rw [hpos] at few; simp at few
  rcases hgiven with hg | hg
  · have : slot c (place f) (Spec.userName f, k) = none := by simp [slot, hg]
    rw [this] at hslot
    have hlt : place f < vs.length := by rw [hl]; cases f <;> decide
    rw [List.getElem?_eq_getElem hlt] at hslot
    cases hslot
  · rw [← hslot]
    unfold slot
    rw [hg]
    rcases ha : Spec.argument c f with _ | v
    · simp [hini]
    · have hlt : place f < vs.length := by rw [hl]; cases f <;> decide
      rcases hc : conv k v with _ | w
      · have : slot c (place f) (Spec.userName f, k) = none := by simp [slot, hg, ha, hc]
        rw [this, List.getElem?_eq_getElem hlt] at hslot
        cases hslot
      · simp [hc, hconv v w hc]

/-- **C133.** A call with good arguments that gives the first one starts. -/
theorem C133_starts (c : Call) (hk : (c.kw.map Prod.fst).Nodup) (hg : Spec.Good diffSig.params 2 c)
    (hd : (Spec.argument c .DLPInst).isSome) : ∃ m, construct c = .with m := by
  have ok := (C133_accept diffSig c (by decide +kernel) (by decide) hk).2 hg
  obtain ⟨vs, hvs⟩ := Option.isSome_iff_exists.1 ok
  obtain ⟨few, hl, hs⟩ := parse_slots hvs
  have h0 := hs 0 ("dlp", .O) rfl
  have hlt : 0 < vs.length := by omega
  rw [List.getElem?_eq_getElem hlt] at h0
  have hm : ∃ v, store addresses vs initial .DLPInst = some v := by
    rw [store_place vs hl]
    show ∃ v, (match vs[0]? with | some (some v) => some v | _ => initial .DLPInst) = some v
    rw [List.getElem?_eq_getElem hlt]
    have hv0 : ∃ v, vs[0] = some v := by
      unfold slot given at h0
      unfold Spec.argument at hd
      rcases hpos : c.pos with _ | ⟨a, t⟩
      · simp only [hpos, Spec.userName] at hd
        obtain ⟨v, hv⟩ := Option.isSome_iff_exists.1 hd
        have hv' : c.kw.lookup "dlp" = some v := by rw [lookup_find]; exact hv
        simp only [hpos, hv', conv, List.getElem?_nil, Option.map_some, Option.some.injEq] at h0
        exact ⟨v, h0.symm⟩
      · rcases hf : c.kw.lookup "dlp" with _ | w
        · simp only [hpos, hf, conv, List.getElem?_cons_zero, Option.map_some, Option.some.injEq] at h0
          exact ⟨a, h0.symm⟩
        · simp only [hpos, hf, List.getElem?_cons_zero] at h0
          cases h0
    obtain ⟨v, hv⟩ := hv0
    exact ⟨v, by rw [hv]⟩
  obtain ⟨v, hv⟩ := hm
  exact ⟨store addresses vs initial, by simp [construct, hvs, hv]⟩

example : ∃ m, construct ⟨[.obj 7, .num 1], [("use_norm", .bool false)]⟩ = .with m ∧ m .use_norm = some (.bool false) ∧
    m .bfac = some (.bool true) ∧ m .input_resolution_km = some (.num 1) := ⟨_, rfl, rfl, rfl, rfl⟩

/-- **C133 is false without a data product**: such a call is accepted, and then uses a variable that has no value. -/
theorem C133_missing_false : ¬ ∀ c : Call, (c.kw.map Prod.fst).Nodup → Spec.Good diffSig.params 2 c → ∃ m, construct c = .with m := by
  intro h
  obtain ⟨m, hm⟩ := h ⟨[], [("resolution", .num 1)]⟩ (by decide)
    ⟨by decide, by
      intro k hk
      simp only [List.mem_singleton] at hk
      subst hk
      exact ⟨1, ("resolution", .d), rfl, rfl, by decide, Or.inl ⟨1, rfl⟩⟩, by intro i v p hv; simp at hv⟩
  exact absurd hm (by intro hm; cases hm)

/-- The parameters of the class of a call. -/
def Site.sig (s : Site) : Sig :=
  match s.cls with
  | .diffraction => diffSig
  | .csv => csvSig

/-- The places whose calls cannot succeed. -/
def Spec.broken : List (String × List Nat) :=
  [("rss_ringoccs/tools/advanced_tools.py", [40, 44, 132]), ("rss_ringoccs/tools/compare.py", [14, 17, 321, 346, 414]),
   ("rss_ringoccs/tools/rss_ringoccs_local_tools.py", [3670]), ("pipeline/diffrec_batch.py", [70]), ("pipeline/e2e_batch.py", [58, 78]),
   ("pipeline/e2e_batch_postUSO_1km.py", [99, 119]), ("pipeline/e2e_scattered.py", [53, 73]),
   ("pipeline/pipeline_uranus/reconstruction.py", [91]), ("examples/pipeline_examples/e2e_run.py", [47, 55]),
   ("examples/pipeline_examples/quick_look_example.py", [32, 43])]

/-- Is the call in the list? -/
def Spec.isBroken (s : Site) : Bool := Spec.broken.any fun b => b.1 == s.file && b.2.contains s.line

/-- **C133 is false of 21 calls in the package**: they are refused whatever the values of their arguments are. -/
theorem C133_sites_false (s : Site) (hs : s ∈ sites) (hb : Spec.isBroken s = true) (c : Call) (hc : c.kw.map Prod.fst = s.kws) :
    parseArgs s.sig c = none := by
  have table : ∀ s ∈ sites, Spec.isBroken s = true → ∃ name ∈ s.kws, name ∉ s.sig.params.map Prod.fst := by decide +kernel
  obtain ⟨name, h1, h2⟩ := table s hs hb
  exact C133_unknown _ c name (by rw [hc]; exact h1) h2

example : (sites.filter Spec.isBroken).length = 21 := by decide +kernel

/-- **C133** for the other calls: they are accepted exactly if every argument is of the right kind. -/
theorem C133_sites_partial (s : Site) (hs : s ∈ sites) (hb : Spec.isBroken s = false) (c : Call) (hc : c.kw.map Prod.fst = s.kws)
    (hp : c.pos.length = s.nPos)
    (hpos : ∀ (i : Nat) (v : Val) (p : String × Kind), c.pos[i]? = some v → s.sig.params[i]? = some p → Spec.Fits p.2 v)
    (hkw : ∀ k ∈ c.kw, ∀ p ∈ s.sig.params, p.1 = k.1 → Spec.Fits p.2 k.2) : (parseArgs s.sig c).isSome := by
  have table : ∀ s ∈ sites, Spec.isBroken s = false → s.nPos = s.sig.nPos ∧ s.kws.Nodup ∧ (s.sig.params.map Prod.fst).Nodup ∧
      s.sig.nPos ≤ s.sig.params.length ∧ ∀ name ∈ s.kws, name ∈ (s.sig.params.drop s.nPos).map Prod.fst := by decide +kernel
  obtain ⟨h1, h2, h3, h4, h5⟩ := table s hs hb
  rw [C133_accept _ _ h3 h4 (by rw [hc]; exact h2)]
  refine ⟨by omega, ?_, hpos⟩
  intro k hk
  have hmem := h5 k.1 (by rw [← hc]; exact List.mem_map_of_mem hk)
  obtain ⟨p, hpm, hpk⟩ := List.mem_map.1 hmem
  obtain ⟨j, hj⟩ := List.mem_iff_getElem?.1 hpm
  rw [List.getElem?_drop] at hj
  exact ⟨s.nPos + j, p, hj, hpk, by omega, hkw k hk p (List.mem_of_getElem? hj) hpk⟩

example : (parseArgs diffSig ⟨[.obj 7, .num 1], [("rng", .str "maxwell"), ("wtype", .str "kb25")]⟩).isSome := by decide +kernel

/-- **C133 is false of these attributes**: objects of the class do not have them. -/
theorem C133_attributes_false : ∀ a ∈ foreign, hasAttr a.1 = false := by decide +kernel

example : hasAttr "T_out" = true ∧ foreign.length = 19 := by decide +kernel

end Verif.Args
