import Verif.Model.Layout

/-!
# C182–C184: the bytes of the Python objects
-/
namespace Verif.Lay

namespace Spec

/-- A value that can be held: addresses and `double`s have 8 bytes, and no object is at the address zero. -/
def Valid : Value → Prop
  | .ref l => l.length = 8 ∧ ∃ x ∈ l, x ≠ 0
  | .bool _ => True
  | .float l => l.length = 8

/-- The flags as the caller meant them: those given, and otherwise the documented ones. -/
def meant (g : Flags) : Bool × Bool × Bool × Bool :=
  (g.useFwd.getD false, g.useNorm.getD true, g.verbose.getD false, g.bfac.getD true)

end Spec

/-! ## Lemmas on bytes -/

theorem load_store (m : Bytes) (off : Nat) (l : List UInt8) : load (store m off l) off l.length = l := by
  apply List.ext_getElem
  · simp [load]
  · intro i h1 h2
    simp [load, store, h2]

theorem store_outside (m : Bytes) (off : Nat) (l : List UInt8) (i : Nat) (h : i < off ∨ off + l.length ≤ i) : store m off l i = m i := by
  unfold store
  split
  · rw [List.getElem?_eq_none (by omega)]; rfl
  · rfl

theorem load_outside (m : Bytes) (off : Nat) (l : List UInt8) (a n : Nat) (h : a + n ≤ off ∨ off + l.length ≤ a) :
    load (store m off l) a n = load m a n := by
  unfold load
  apply List.map_congr_left
  intro j hj
  rw [List.mem_range] at hj
  exact store_outside _ _ _ _ (by omega)

theorem bytes_length {c : Code} {v : Value} {l : List UInt8} (hv : Spec.Valid v) (h : c.bytes v = some l) : l.length = c.width := by
  cases c <;> cases v <;> simp [Code.bytes, Code.width] at * <;> subst h
  · exact hv.1
  · rfl
  · exact hv

theorem read_bytes {c : Code} {v : Value} {l : List UInt8} (hv : Spec.Valid v) (h : c.bytes v = some l) : c.read l = some v := by
  cases c <;> cases v <;> simp [Code.bytes] at h <;> subst h
  · obtain ⟨x, hx, h0⟩ := hv.2
    simp only [Code.read]
    rw [if_neg]
    simp only [List.all_eq_true, beq_iff_eq]
    intro h; exact h0 (h x hx)
  · rename_i v; cases v <;> rfl
  · rfl

/-! ## The tables -/

/-- The check of a class that the proofs need: every attribute has a slot, as wide as what is read and written, and the slots of different attributes
are one after the other. -/
def sound (k : Class) : Bool :=
  k.members.all fun t => match slot k.fields t.field with
    | none => false
    | some s => k.members.all fun u => match slot k.fields u.field with
      | none => false
      | some r => t.name == u.name || decide (s.off + t.code.width ≤ r.off) || decide (r.off + u.code.width ≤ s.off)

theorem sound_csv : sound csvClass = true := by decide +kernel
theorem sound_one : sound (diffClass 1) = true := by decide +kernel
theorem sound_four : sound (diffClass 4) = true := by decide +kernel

/-- The classes that there are: that of files, and that of reconstructions for both sizes of a truth value. -/
def Known (k : Class) : Prop := k = csvClass ∨ ∃ b, (b = 1 ∨ b = 4) ∧ k = diffClass b

theorem sound_known {k : Class} (h : Known k) : sound k = true := by
  rcases h with rfl | ⟨b, rfl | rfl, rfl⟩
  · exact sound_csv
  · exact sound_one
  · exact sound_four

theorem set_sound {k : Class} (hk : sound k = true) {m m' : Bytes} {name : String} {v : Value} (hv : Spec.Valid v)
    (h : setAttr k m name v = some m') : getAttr k m' name = some v ∧ ∀ other, other ≠ name → getAttr k m' other = getAttr k m other := by
  unfold setAttr at h
  cases ht : k.members.find? (fun t => t.name == name) with
  | none => rw [ht] at h; cases h
  | some t =>
    rw [ht] at h
    simp only at h
    cases hs : slot k.fields t.field with
    | none => rw [hs] at h; cases h
    | some s =>
      rw [hs] at h
      simp only at h
      cases hb : t.code.bytes v with
      | none => rw [hb] at h; cases h
      | some l =>
        rw [hb] at h
        simp only [Option.map_some, Option.some.injEq] at h
        subst h
        have hl := bytes_length hv hb
        refine ⟨?_, ?_⟩
        · unfold getAttr
          rw [ht]
          simp only
          rw [hs]
          simp only
          rw [← hl, load_store]
          exact read_bytes hv hb
        · intro other ho
          unfold getAttr
          cases hu : k.members.find? (fun t => t.name == other) with
          | none => rfl
          | some u =>
            simp only
            cases hr : slot k.fields u.field with
            | none => rfl
            | some r =>
              simp only
              have htm := List.mem_of_find?_eq_some ht
              have hum := List.mem_of_find?_eq_some hu
              have htn := List.find?_some ht
              have hun := List.find?_some hu
              have h1 := List.all_eq_true.mp hk t htm
              rw [hs] at h1
              have h2 := List.all_eq_true.mp h1 u hum
              rw [hr] at h2
              simp only [Bool.or_eq_true, beq_iff_eq, decide_eq_true_eq] at h2 htn hun
              rw [load_outside]
              rcases h2 with (h2 | h2) | h2
              · exact absurd (hun.symm.trans (h2.symm.trans htn)) ho
              · right; omega
              · left; omega

/-- **C182.** What is assigned to an attribute of an object is what is read from it afterwards, and every other attribute stays what it was. -/
theorem C182_set {k : Class} (hk : Known k) {m m' : Bytes} {name : String} {v : Value} (hv : Spec.Valid v) (h : setAttr k m name v = some m') :
    getAttr k m' name = some v ∧ ∀ other, other ≠ name → getAttr k m' other = getAttr k m other :=
  set_sound (sound_known hk) hv h

example : ∃ m', setAttr (diffClass 1) (fun _ => 0) "use_norm" (.bool true) = some m' ∧ getAttr (diffClass 1) m' "use_norm" = some (.bool true) ∧
    getAttr (diffClass 1) m' "verbose" = some (.bool false) ∧ getAttr (diffClass 1) m' "T_in" = none := by
  refine ⟨_, rfl, ?_, ?_, ?_⟩ <;> decide +kernel

/-- The second check of a class: each attribute is found by its name, with a slot of its own name wide enough for what is written. -/
def wide (k : Class) : Bool :=
  k.members.all fun t => (k.members.find? fun u => u.name == t.name) == some t && match slot k.fields t.name with
    | none => false
    | some s => slot k.fields t.field == some s && decide (t.code.width ≤ s.size)

/-- **C182.** A value of the right kind can be assigned to every attribute, and that changes no byte outside the member of the same name. -/
theorem C182_bytes {k : Class} (hk : Known k) (m : Bytes) {t : Member} (ht : t ∈ k.members) {v : Value} (hv : Spec.Valid v)
    (hc : (t.code, v) ∈ (match v with
      | .ref l => [(Code.object, Value.ref l)]
      | .bool x => [(Code.bool, Value.bool x)]
      | .float l => [(Code.double, Value.float l)] : List (Code × Value))) :
    ∃ m' s, setAttr k m t.name v = some m' ∧ slot k.fields t.name = some s ∧ ∀ i, i < s.off ∨ s.off + s.size ≤ i → m' i = m i := by
  have hw : wide k = true := by
    rcases hk with rfl | ⟨b, rfl | rfl, rfl⟩ <;> decide +kernel
  have h := List.all_eq_true.mp hw t ht
  simp only [Bool.and_eq_true, beq_iff_eq] at h
  obtain ⟨hf, h⟩ := h
  cases hs : slot k.fields t.name with
  | none => rw [hs] at h; cases h
  | some s =>
    rw [hs] at h
    simp only [Bool.and_eq_true, beq_iff_eq, decide_eq_true_eq] at h
    have hb : ∃ l, t.code.bytes v = some l := by
      cases v <;> simp only [List.mem_singleton, Prod.mk.injEq, and_true] at hc <;> rw [hc] <;> exact ⟨_, rfl⟩
    obtain ⟨l, hl⟩ := hb
    refine ⟨store m s.off l, s, ?_, rfl, ?_⟩
    · unfold setAttr
      rw [hf]
      simp only
      rw [h.1]
      simp only
      rw [hl]
      rfl
    · intro i hi
      have := bytes_length hv hl
      exact store_outside _ _ _ _ (by omega)

example : (⟨"sigma", .double, "sigma"⟩ : Member) ∈ (diffClass 4).members ∧ Spec.Valid (.float [0, 0, 0, 0, 0, 0, 0, 0]) := by
  refine ⟨by decide +kernel, rfl⟩

/-- **C182.** The attribute of a name is the member of the structure of that name: the 24 objects of a file follow the head of the object, and so
do the 23 objects of a reconstruction, its flags, its numbers and its texts. -/
theorem C182_places (m : Bytes) :
    (∀ p ∈ ["B_deg_vals", "D_km_vals", "f_sky_hz_vals", "p_norm_vals", "raw_tau_vals", "phase_deg_vals", "phi_deg_vals", "phi_rl_deg_vals",
        "raw_tau_threshold_vals", "rev_info", "rho_corr_pole_km_vals", "rho_corr_timing_km_vals", "rho_dot_kms_vals", "rho_km_vals",
        "t_oet_spm_vals", "t_ret_spm_vals", "t_set_spm_vals", "history", "rx_km_vals", "ry_km_vals", "rz_km_vals", "tau_phase_deg_vals",
        "tau_power_vals", "tau_vals"].zipIdx, getAttr csvClass m p.1 = Code.object.read (load m (16 + 8 * p.2) 8)) ∧
    (∀ b, b = 1 ∨ b = 4 → ∀ p ∈ [("T_in", 0), ("T_out", 1), ("T_fwd", 2), ("B_deg_vals", 4), ("D_km_vals", 5), ("F_km_vals", 6),
        ("phi_deg_vals", 7), ("phi_rl_deg_vals", 8), ("input_vars", 9), ("input_kwds", 10), ("rho_corr_pole_km_vals", 11),
        ("rho_corr_timing_km_vals", 12), ("rho_dot_kms_vals", 13), ("rho_km_vals", 14), ("t_oet_spm_vals", 15), ("t_ret_spm_vals", 16),
        ("t_set_spm_vals", 17), ("tau_threshold_vals", 18), ("w_km_vals", 19), ("rx_km_vals", 20), ("ry_km_vals", 21), ("rz_km_vals", 22)],
        getAttr (diffClass b) m p.1 = Code.object.read (load m (16 + 8 * p.2) 8)) ∧
    (∀ b, b = 1 ∨ b = 4 → ∀ p ∈ [("bfac", 0), ("use_fwd", 1), ("use_norm", 2), ("verbose", 3)],
        getAttr (diffClass b) m p.1 = Code.bool.read (load m (200 + b * p.2) 1)) ∧
    (∀ b, b = 1 ∨ b = 4 → ∀ p ∈ [("input_resolution_km", 0), ("resolution_factor", 1), ("eccentricity", 2), ("periapse", 3), ("sigma", 4)],
        getAttr (diffClass b) m p.1 = Code.double.read (load m ((if b = 1 then 208 else 216) + 8 * p.2) 8)) := by
  refine ⟨?_, ?_, ?_, ?_⟩
  · simp only [List.zipIdx, List.forall_mem_cons, List.not_mem_nil, false_imp_iff, implies_true, and_true]
    repeat' apply And.intro
    all_goals rfl
  all_goals
    rintro b (rfl | rfl) <;> simp only [List.forall_mem_cons, List.not_mem_nil, false_imp_iff, implies_true, and_true]
    all_goals repeat' apply And.intro
    all_goals rfl

example : (slot (diffFields 1) "sigma").map (·.off) = some 240 ∧ (slot (diffFields 4) "sigma").map (·.off) = some 248 ∧
    (slot csvFields "tau_vals").map (·.off) = some 200 := by decide +kernel

/-- **C182.** The destructor gives back the object of every attribute that holds an object, and each one once; no attribute is given twice. -/
theorem C182_released {k : Class} (hk : Known k) : k.released.Nodup ∧ (k.members.map (·.name)).Nodup ∧
    ∀ name, name ∈ k.released ↔ ∃ t ∈ k.members, t.name = name ∧ t.code = .object := by
  have key : ∀ k : Class, (decide k.released.Nodup && decide (k.members.map (·.name)).Nodup &&
      (k.released.all fun n => k.members.any fun t => t.name == n && t.code == .object) &&
      (k.members.all fun t => t.code != .object || k.released.contains t.name)) = true → k.released.Nodup ∧ (k.members.map (·.name)).Nodup ∧
      ∀ name, name ∈ k.released ↔ ∃ t ∈ k.members, t.name = name ∧ t.code = .object := by
    intro k h
    simp only [Bool.and_eq_true, decide_eq_true_eq, List.all_eq_true, List.any_eq_true, beq_iff_eq, Bool.or_eq_true, bne_iff_ne, ne_eq,
      List.contains_iff_mem] at h
    obtain ⟨⟨⟨h1, h2⟩, h3⟩, h4⟩ := h
    refine ⟨h1, h2, fun name => ⟨h3 name, ?_⟩⟩
    rintro ⟨t, ht, rfl, hc⟩
    rcases h4 t ht with h | h
    · exact absurd hc h
    · exact h
  apply key
  rcases hk with rfl | ⟨b, rfl | rfl, rfl⟩ <;> decide +kernel

example : "history" ∈ csvClass.released ∧ "sigma" ∉ (diffClass 4).released := by decide +kernel

/-! ## The flags -/

/-- **C183.** With truth values of the size of a C `int`, every flag given by keyword arrives in its own field, those not given have the documented
values, and no byte outside the four fields changes. -/
theorem C183_four_partial (m : Bytes) (g : Flags) :
    (flag 4 (parseFlags 4 m g) "use_fwd", flag 4 (parseFlags 4 m g) "use_norm", flag 4 (parseFlags 4 m g) "verbose",
      flag 4 (parseFlags 4 m g) "bfac") = Spec.meant g ∧ ∀ i, i < 200 ∨ 216 ≤ i → parseFlags 4 m g i = m i := by
  have e1 : slot (diffFields 4) "bfac" = some ⟨"bfac", 200, 4⟩ := by decide +kernel
  have e2 : slot (diffFields 4) "use_fwd" = some ⟨"use_fwd", 204, 4⟩ := by decide +kernel
  have e3 : slot (diffFields 4) "use_norm" = some ⟨"use_norm", 208, 4⟩ := by decide +kernel
  have e4 : slot (diffFields 4) "verbose" = some ⟨"verbose", 212, 4⟩ := by decide +kernel
  obtain ⟨a, n, v, f⟩ := g
  unfold parseFlags preset
  simp only [flag, parseP, assign, e1, e2, e3, e4]
  refine ⟨?_, ?_⟩
  · rcases a with _ | _ | _ <;> rcases n with _ | _ | _ <;> rcases v with _ | _ | _ <;> rcases f with _ | _ | _ <;> rfl
  · intro i hi
    rcases a with _ | a <;> rcases n with _ | n <;> rcases v with _ | v <;> rcases f with _ | f <;> simp only <;>
      repeat rw [store_outside _ _ _ _ (by simp only [List.length_cons, List.length_replicate, List.length_nil]; omega)]

example : flag 4 (parseFlags 4 (fun _ => 7) ⟨some true, none, some true, some false⟩) "verbose" = true ∧
    flag 4 (parseFlags 4 (fun _ => 7) ⟨some true, none, some true, some false⟩) "bfac" = false ∧
    parseFlags 4 (fun _ => 7) ⟨some true, none, some true, some false⟩ 216 = 7 := by decide +kernel

/-- **C183.** With truth values of one byte, the flags arrive if the caller gives none before the last of those given, in the order of the structure:
`verbose` alone, `use_norm` alone with `verbose` not wanted, and so on.  Exactly: a flag that is given clears the flags that follow it in the
structure and that were set before it was read. -/
theorem C183_one_partial (m : Bytes) (g : Flags) :
    flag 1 (parseFlags 1 m g) "bfac" = g.bfac.getD true ∧
    flag 1 (parseFlags 1 m g) "use_fwd" = (g.bfac.isNone && g.useFwd.getD false) ∧
    flag 1 (parseFlags 1 m g) "use_norm" = (g.bfac.isNone && (g.useNorm.getD g.useFwd.isNone)) ∧
    flag 1 (parseFlags 1 m g) "verbose" = (g.bfac.isNone && g.verbose.getD false) ∧
    ∀ i, i < 200 ∨ 207 ≤ i → parseFlags 1 m g i = m i := by
  have e1 : slot (diffFields 1) "bfac" = some ⟨"bfac", 200, 1⟩ := by decide +kernel
  have e2 : slot (diffFields 1) "use_fwd" = some ⟨"use_fwd", 201, 1⟩ := by decide +kernel
  have e3 : slot (diffFields 1) "use_norm" = some ⟨"use_norm", 202, 1⟩ := by decide +kernel
  have e4 : slot (diffFields 1) "verbose" = some ⟨"verbose", 203, 1⟩ := by decide +kernel
  obtain ⟨a, n, v, f⟩ := g
  unfold parseFlags preset
  simp only [flag, parseP, assign, e1, e2, e3, e4]
  refine ⟨?_, ?_, ?_, ?_, ?_⟩
  iterate 4 (rcases a with _ | _ | _ <;> rcases n with _ | _ | _ <;> rcases v with _ | _ | _ <;> rcases f with _ | _ | _ <;> rfl)
  · intro i hi
    rcases a with _ | a <;> rcases n with _ | n <;> rcases v with _ | v <;> rcases f with _ | f <;> simp only <;>
      repeat rw [store_outside _ _ _ _ (by simp only [List.length_cons, List.length_replicate, List.length_nil]; omega)]

example : flag 1 (parseFlags 1 (fun _ => 0) ⟨none, some false, some true, none⟩) "verbose" = true ∧
    flag 1 (parseFlags 1 (fun _ => 0) ⟨none, some false, some true, none⟩) "use_norm" = false := by decide +kernel

/-- **C183 is false of the code** with truth values of one byte: `use_fwd=True, verbose=True, bfac=True` asks for a model to be undone and messages to be
written; both requests, and the normalisation that nobody touched, are wiped out by the storing of `bfac`; and `use_fwd=False` alone turns the
normalisation off. -/
theorem C183_flags_false : ¬ ∀ (b : Nat), b = 1 ∨ b = 4 → ∀ (m : Bytes) (g : Flags),
    (flag b (parseFlags b m g) "use_fwd", flag b (parseFlags b m g) "use_norm", flag b (parseFlags b m g) "verbose",
      flag b (parseFlags b m g) "bfac") = Spec.meant g := by
  intro h
  have := h 1 (Or.inl rfl) (fun _ => 0) ⟨some true, none, some true, some true⟩
  revert this
  decide +kernel

example : (flag 1 (parseFlags 1 (fun _ => 0) ⟨some true, none, some true, some true⟩) "use_fwd" = false) ∧
    flag 1 (parseFlags 1 (fun _ => 0) ⟨some false, none, none, none⟩) "use_norm" = false := by decide +kernel

/-! ## What can be read -/

/-- **C184.** Every member of the object of a file can be read as an attribute, once it is there. -/
theorem C184_csv_partial (m : Bytes) : ∀ f ∈ csvFields, ∃ s, slot csvFields f.name = some s ∧
    (load m s.off 8 ≠ List.replicate 8 0 → getAttr csvClass m f.name = some (.ref (load m s.off 8))) := by
  intro f hf
  have hp := (C182_places m).1
  have h2 : ∃ p ∈ csvFields.zipIdx, p.1 = f := by
    obtain ⟨i, hi, rfl⟩ := List.mem_iff_getElem.mp hf
    exact ⟨(csvFields[i], i), by rw [List.mem_zipIdx_iff_getElem?]; simp [hi], rfl⟩
  have all : ∀ p ∈ csvFields.zipIdx, slot csvFields p.1.name = some ⟨p.1.name, 16 + 8 * p.2, 8⟩ := by decide +kernel
  obtain ⟨p, hpm, rfl⟩ := h2
  refine ⟨_, all p hpm, ?_⟩
  have hq : (p.1.name, p.2) ∈ (csvFields.map (·.name)).zipIdx := by
    rw [List.mem_zipIdx_iff_getElem?] at hpm ⊢
    simp [hpm]
  intro hne
  have := hp (p.1.name, p.2) hq
  simp only at this ⊢
  rw [this]
  simp only [Code.read]
  rw [if_neg]
  intro hall
  apply hne
  rw [List.eq_replicate_iff]
  refine ⟨by simp [load], fun x hx => ?_⟩
  have := List.all_eq_true.mp hall x hx
  simpa using this

example : (slot csvFields "history").map (·.off) = some 152 := by decide +kernel

/-- **C184.** The members of a reconstruction without an attribute are three: the wavenumbers, the name of the window and that of the Fresnel kernel. -/
theorem C184_missing_partial (b : Nat) : ∀ f ∈ diffFields b,
    (∃ t ∈ diffMembers, t.name = f.name) ↔ f.name ≠ "k_vals" ∧ f.name ≠ "wtype" ∧ f.name ≠ "psitype" := by
  have hn : (diffFields b).map (·.name) = (diffFields 1).map (·.name) := by simp [diffFields]
  have all : ∀ n ∈ (diffFields 1).map (·.name), (∃ t ∈ diffMembers, t.name = n) ↔ n ≠ "k_vals" ∧ n ≠ "wtype" ∧ n ≠ "psitype" := by decide +kernel
  intro f hf
  exact all f.name (hn ▸ List.mem_map_of_mem hf)

example : (⟨"k_vals", 8⟩ : CField) ∈ diffFields 1 ∧ (⟨"sigma", 8⟩ : CField) ∈ diffFields 1 := by decide +kernel

/-- **C184 is false of the code**: the wavenumbers, the window and the kernel of a reconstruction are in the object, and reading them is an
`AttributeError` whatever is in it. -/
theorem C184_all_false : ¬ ∀ (b : Nat), b = 1 ∨ b = 4 → ∀ f ∈ diffFields b, ∃ m, getAttr (diffClass b) m f.name ≠ none := by
  intro h
  obtain ⟨m, hm⟩ := h 1 (Or.inl rfl) ⟨"wtype", 8⟩ (by decide +kernel)
  exact hm rfl

example (m : Bytes) : getAttr (diffClass 1) m "k_vals" = none ∧ getAttr (diffClass 4) m "psitype" = none := ⟨rfl, rfl⟩

end Verif.Lay
