import Verif.Model.PyCall
import Mathlib.Data.List.Nodup
import Mathlib.Data.List.GetD
import Mathlib.Tactic.Common

/-!
# C142: every call passes what the function takes
-/
namespace Verif.PyCall

/-- What the language reference demands of a call with `n` positional arguments and the keywords `ks`: not more positional arguments than
parameters, every keyword once and the name of a parameter that no positional argument fills, and no parameter without a value. -/
def Spec.Accepted (g : Sig) (n : Nat) (ks : List String) : Prop :=
  n ≤ g.params.length ∧ ks.Nodup ∧ (∀ k ∈ ks, k ∈ g.params.drop n) ∧ ∀ p ∈ (g.params.take g.nreq).drop n, p ∈ ks

instance (g : Sig) (n : Nat) (ks : List String) : Decidable (Spec.Accepted g n ks) := by unfold Spec.Accepted; infer_instance

/-- What the parameter number `i` with the name `p` receives. -/
def Spec.Gets {V : Type} (g : Sig) (pos : List V) (kw : List (String × V)) (i : Nat) (p : String) (a : Arg V) : Prop :=
  (∃ v, pos[i]? = some v ∧ a = .given v) ∨
  (pos.length ≤ i ∧ ∃ v, (p, v) ∈ kw ∧ a = .given v) ∨
  (pos.length ≤ i ∧ g.nreq ≤ i ∧ p ∉ kw.map Prod.fst ∧ a = .dflt)

/-- The keyword arguments can be put in their places. -/
def Fits {V : Type} (params : List String) (kw : List (String × V)) (s : List (Option V)) : Prop :=
  (kw.map Prod.fst).Nodup ∧ ∀ k ∈ kw.map Prod.fst, k ∈ params ∧ s.getD (params.idxOf k) none = none

theorem fill_ok {V : Type} {params : List String} (hn : params.Nodup) : ∀ (kw : List (String × V)) (s : List (Option V)),
    s.length = params.length → Fits params kw s → ∃ t, fillKw params kw s = .ok t ∧ t.length = params.length ∧
      ∀ i (hi : i < params.length), (∀ v, (params[i], v) ∈ kw → t.getD i none = some v) ∧
        (params[i] ∉ kw.map Prod.fst → t.getD i none = s.getD i none)
  | [], s, hl, _ => ⟨s, rfl, hl, fun i hi => ⟨fun v h => absurd h List.not_mem_nil, fun _ => rfl⟩⟩
  | (k, v) :: r, s, hl, h => by
    obtain ⟨h1, h2⟩ := h
    rw [List.map_cons, List.nodup_cons] at h1
    obtain ⟨hk, hs⟩ := h2 k (by simp)
    have hi := List.idxOf_lt_length_of_mem hk
    rw [fillKw]
    rw [if_pos hi, hs]
    simp only
    have fit : Fits params r (s.set (params.idxOf k) (some v)) := by
      refine ⟨h1.2, fun k' hk' => ?_⟩
      obtain ⟨a, b⟩ := h2 k' (List.mem_cons_of_mem _ hk')
      refine ⟨a, ?_⟩
      have hne : params.idxOf k ≠ params.idxOf k' := by
        intro e
        have := (List.idxOf_inj hk).mp e
        exact h1.1 (this ▸ hk')
      rw [List.getD_eq_getElem?_getD, List.getElem?_set_ne hne, ← List.getD_eq_getElem?_getD, b]
    obtain ⟨t, e, l, q⟩ := fill_ok hn r _ (by rw [List.length_set, hl]) fit
    refine ⟨t, e, l, fun i hi' => ?_⟩
    obtain ⟨q1, q2⟩ := q i hi'
    by_cases hik : params[i] = k
    · have ix : params.idxOf k = i := by rw [← hik]; exact List.Nodup.idxOf_getElem hn i hi'
      have := q2 (by rw [hik]; exact h1.1)
      rw [ix, List.getD_eq_getElem?_getD (l := s.set _ _), List.getElem?_set_self (by omega)] at this
      refine ⟨fun w hw => ?_, fun hnot => absurd (by simp [hik]) hnot⟩
      rcases List.mem_cons.mp hw with hw | hw
      · injection hw with _ hw
        rw [this, hw]; rfl
      · rw [hik] at hw
        exact absurd (List.mem_map_of_mem (f := Prod.fst) hw) h1.1
    · refine ⟨fun w hw => ?_, fun hnot => ?_⟩
      · rcases List.mem_cons.mp hw with hw | hw
        · injection hw with hw _
          exact absurd hw hik
        · exact q1 w hw
      · rw [q2 (fun x => hnot (by rw [List.map_cons]; exact List.mem_cons_of_mem _ x))]
        have ix : params.idxOf k ≠ i := by
          intro ix
          apply hik
          subst ix
          exact List.getElem_idxOf _
        rw [List.getD_eq_getElem?_getD, List.getElem?_set_ne ix, ← List.getD_eq_getElem?_getD]

theorem fill_error {V : Type} {params : List String} : ∀ (kw : List (String × V)) (s : List (Option V)),
    s.length = params.length → ¬ Fits params kw s → ∃ e, fillKw params kw s = .error e
  | [], s, _, h => absurd ⟨List.nodup_nil, fun k hk => by cases hk⟩ h
  | (k, v) :: r, s, hl, h => by
    rw [fillKw]
    split_ifs with hi
    · rcases hs : s.getD (params.idxOf k) none with _ | w
      · simp only
        refine fill_error r _ (by rw [List.length_set, hl]) fun fit => h ?_
        obtain ⟨f1, f2⟩ := fit
        have hk : k ∉ r.map Prod.fst := by
          intro hk
          have := (f2 k hk).2
          rw [List.getD_eq_getElem?_getD, List.getElem?_set_self (by omega)] at this
          cases this
        refine ⟨by rw [List.map_cons, List.nodup_cons]; exact ⟨hk, f1⟩, fun k' hk' => ?_⟩
        rcases List.mem_cons.mp hk' with rfl | hk'
        · exact ⟨List.idxOf_lt_length_iff.mp hi, hs⟩
        · obtain ⟨a, b⟩ := f2 k' hk'
          refine ⟨a, ?_⟩
          by_cases e : params.idxOf k = params.idxOf k'
          · rw [← e]; exact hs
          · rwa [List.getD_eq_getElem?_getD, List.getElem?_set_ne e, ← List.getD_eq_getElem?_getD] at b
      · exact ⟨_, rfl⟩
    · exact ⟨_, rfl⟩

theorem slots_length {V : Type} (n : Nat) (pos : List V) :
    ((pos.take n).map some ++ List.replicate (n - pos.length) none).length = n := by
  rw [List.length_append, List.length_map, List.length_take, List.length_replicate]
  omega

theorem slots_getD {V : Type} (n : Nat) (pos : List V) (i : Nat) (hi : i < n) :
    ((pos.take n).map some ++ List.replicate (n - pos.length) none).getD i none = pos[i]? := by
  rw [List.getD_eq_getElem?_getD, List.getElem?_append]
  split_ifs with h
  · rw [List.length_map, List.length_take] at h
    rw [List.getElem?_map, List.getElem?_take_of_lt hi, List.getElem?_eq_getElem (by omega)]
    rfl
  · rw [List.length_map, List.length_take] at h
    rw [List.getElem?_eq_none (l := pos) (by omega)]
    rw [List.getElem?_replicate]
    split_ifs <;> rfl

theorem mem_drop_iff {params : List String} (hn : params.Nodup) (n : Nat) (k : String) :
    k ∈ params.drop n ↔ k ∈ params ∧ n ≤ params.idxOf k := by
  constructor
  · intro h
    obtain ⟨j, hj, e⟩ := List.mem_iff_getElem.mp h
    rw [List.getElem_drop] at e
    rw [List.length_drop] at hj
    subst e
    refine ⟨List.getElem_mem _, ?_⟩
    rw [List.Nodup.idxOf_getElem hn]
    omega
  · rintro ⟨h, hk⟩
    have hi := List.idxOf_lt_length_of_mem h
    rw [List.mem_iff_getElem]
    refine ⟨params.idxOf k - n, by rw [List.length_drop]; omega, ?_⟩
    rw [List.getElem_drop]
    have : n + (params.idxOf k - n) = params.idxOf k := by omega
    simp only [this]
    exact List.getElem_idxOf _

theorem fits_slots {V : Type} {params : List String} (hn : params.Nodup) (pos : List V) (kw : List (String × V)) :
    Fits params kw ((pos.take params.length).map some ++ List.replicate (params.length - pos.length) none) ↔
      (kw.map Prod.fst).Nodup ∧ ∀ k ∈ kw.map Prod.fst, k ∈ params.drop pos.length := by
  unfold Fits
  refine and_congr_right fun _ => forall₂_congr fun k _ => ?_
  rw [mem_drop_iff hn]
  refine and_congr_right fun hk => ?_
  rw [slots_getD _ _ _ (List.idxOf_lt_length_of_mem hk), List.getElem?_eq_none_iff]

/-- **C142** For every signature with distinct names and every call: the call succeeds exactly when the rules of the language accept its shape,
and then every parameter has the value that the rules give it. -/
theorem C142_binds {V : Type} (g : Sig) (hn : g.params.Nodup) (pos : List V) (kw : List (String × V)) :
    (Spec.Accepted g pos.length (kw.map Prod.fst) → ∃ r, bindArgs g pos kw = .ok r ∧ r.length = g.params.length ∧
      ∀ i p a, g.params[i]? = some p → r[i]? = some a → Spec.Gets g pos kw i p a) ∧
    (¬ Spec.Accepted g pos.length (kw.map Prod.fst) → ∃ e, bindArgs g pos kw = .error e) := by
  unfold bindArgs
  by_cases hf : Fits g.params kw ((pos.take g.params.length).map some ++ List.replicate (g.params.length - pos.length) none)
  · obtain ⟨t, e, l, q⟩ := fill_ok hn kw _ (slots_length _ _) hf
    obtain ⟨hd, hk⟩ := (fits_slots hn pos kw).mp hf
    rw [e]
    simp only
    -- what is in the places
    have val : ∀ i (hi : i < g.params.length), (∀ v, pos[i]? = some v → t.getD i none = some v) ∧
        (pos.length ≤ i → (∀ v, (g.params[i], v) ∈ kw → t.getD i none = some v) ∧
          (g.params[i] ∉ kw.map Prod.fst → t.getD i none = none)) := by
      intro i hi
      obtain ⟨q1, q2⟩ := q i hi
      refine ⟨fun v hv => ?_, fun hp => ⟨q1, fun hnot => ?_⟩⟩
      · rw [q2, slots_getD _ _ _ hi, hv]
        intro hm
        have := ((mem_drop_iff hn _ _).mp (hk _ hm)).2
        rw [List.Nodup.idxOf_getElem hn] at this
        rw [List.getElem?_eq_none this] at hv
        cases hv
      · rw [q2 hnot, slots_getD _ _ _ hi, List.getElem?_eq_none hp]
    by_cases hl : g.params.length < pos.length
    · rw [if_pos hl]
      exact ⟨fun h => absurd h.1 (by omega), fun _ => ⟨_, rfl⟩⟩
    rw [if_neg hl]
    -- a parameter without value
    have miss : (t.take g.nreq).any Option.isNone = true ↔ ¬ ∀ p ∈ (g.params.take g.nreq).drop pos.length, p ∈ kw.map Prod.fst := by
      constructor
      · intro h hall
        obtain ⟨o, ho, hoN⟩ := List.any_eq_true.mp h
        obtain ⟨i, hi, rfl⟩ := List.mem_iff_getElem.mp ho
        rw [List.length_take] at hi
        rw [List.getElem_take, Option.isNone_iff_eq_none] at hoN
        have hD : t.getD i none = none := by rw [List.getD_eq_getElem _ _ (by omega)]; exact hoN
        have hi' : i < g.params.length := by omega
        obtain ⟨v1, v2⟩ := val i hi'
        have hp : pos.length ≤ i := by
          by_contra hp
          have := v1 _ (List.getElem?_eq_getElem (by omega))
          rw [hD] at this
          cases this
        have mem : g.params[i] ∈ (g.params.take g.nreq).drop pos.length := by
          rw [List.mem_iff_getElem]
          refine ⟨i - pos.length, by rw [List.length_drop, List.length_take]; omega, ?_⟩
          rw [List.getElem_drop, List.getElem_take]
          congr 1
          omega
        obtain ⟨w, hw, e'⟩ := List.mem_map.mp (hall _ mem)
        have := (v2 hp).1 w.2 (by rw [← e']; exact hw)
        rw [hD] at this
        cases this
      · intro h
        push_neg at h
        obtain ⟨p, hp, hnot⟩ := h
        obtain ⟨j, hj, e'⟩ := List.mem_iff_getElem.mp hp
        rw [List.getElem_drop, List.getElem_take] at e'
        rw [List.length_drop, List.length_take] at hj
        have hi' : pos.length + j < g.params.length := by omega
        have := ((val _ hi').2 (by omega)).2 (by rw [e']; exact hnot)
        rw [List.any_eq_true]
        refine ⟨t[pos.length + j], ?_, ?_⟩
        · rw [List.mem_iff_getElem]
          exact ⟨pos.length + j, by rw [List.length_take]; omega, by rw [List.getElem_take]⟩
        · rw [List.getD_eq_getElem _ _ (by omega)] at this
          rw [this]
          rfl
    by_cases hm : (t.take g.nreq).any Option.isNone = true
    · rw [if_pos hm]
      exact ⟨fun h => absurd h.2.2.2 (miss.mp hm), fun _ => ⟨_, rfl⟩⟩
    · rw [if_neg hm]
      have hall := not_not.mp (fun h => hm (miss.mpr h))
      refine ⟨fun _ => ⟨_, rfl, by rw [List.length_map, l], ?_⟩, fun h => absurd ⟨by omega, hd, hk, hall⟩ h⟩
      intro i p a hp ha
      obtain ⟨hi, rfl⟩ := List.getElem?_eq_some_iff.mp hp
      obtain ⟨v1, v2⟩ := val i hi
      rw [List.getElem?_map, List.getElem?_eq_getElem (by omega), Option.map_some] at ha
      injection ha with ha
      rw [List.getD_eq_getElem _ _ (by omega)] at v1 v2
      unfold Spec.Gets
      by_cases hpl : i < pos.length
      · have h1 := List.getElem?_eq_getElem hpl
        rw [v1 _ h1] at ha
        exact Or.inl ⟨_, h1, ha.symm⟩
      right
      obtain ⟨w1, w2⟩ := v2 (by omega)
      by_cases hkm : g.params[i] ∈ kw.map Prod.fst
      · left
        obtain ⟨w, hw, e'⟩ := List.mem_map.mp hkm
        have hw' : (g.params[i], w.2) ∈ kw := by rw [← e']; exact hw
        rw [w1 _ hw'] at ha
        exact ⟨by omega, w.2, hw', ha.symm⟩
      · right
        rw [w2 hkm] at ha
        refine ⟨by omega, ?_, hkm, ha.symm⟩
        by_contra hreq
        apply hkm
        apply hall
        rw [List.mem_iff_getElem]
        refine ⟨i - pos.length, by rw [List.length_drop, List.length_take]; omega, ?_⟩
        rw [List.getElem_drop, List.getElem_take]
        congr 1
        omega
  · obtain ⟨e, he⟩ := fill_error kw _ (slots_length _ _) hf
    rw [he]
    refine ⟨fun h => absurd ((fits_slots hn pos kw).mpr ⟨h.2.1, h.2.2.1⟩) hf, fun _ => ⟨e, rfl⟩⟩

example : bindArgs resampleIQ [1, 2] [("verbose", 4), ("dr_desired", 3)] = .ok [.given 1, .given 2, .given 3, .given 4] ∧
    bindArgs resampleIQ [1, 2, 3] [] = .ok [.given 1, .given 2, .given 3, .dflt] ∧ bindArgs resampleIQ [1, 2] [] = .error .missing := by
  decide +kernel

/-- The names of the parameters are distinct in all functions. -/
theorem sites_nodup : ∀ s ∈ sites, s.sig.params.Nodup := by decide +kernel

/-- The calls that fail. -/
def Spec.broken : List (String × Nat) := [
  ("pipeline/pipeline_uranus/geocal.py", 108), ("pipeline/pipeline_uranus/scatter.py", 192),
  ("pipeline/pipeline_uranus/dlp.py", 251), ("rss_ringoccs/tools/rss_ringoccs_local_tools.py", 874),
  ("rss_ringoccs/tools/rss_ringoccs_local_tools.py", 1154), ("rss_ringoccs/tools/rss_ringoccs_local_tools.py", 1261),
  ("rss_ringoccs/tools/rss_ringoccs_local_tools.py", 1370), ("rss_ringoccs/tools/rss_ringoccs_local_tools.py", 1408),
  ("rss_ringoccs/tools/rss_ringoccs_local_tools.py", 1446), ("rss_ringoccs/tools/rss_ringoccs_local_tools.py", 1488)]

theorem sites_shape : ∀ s ∈ sites, (Spec.Accepted s.sig s.nPos s.kws ↔ (s.file, s.line) ∉ Spec.broken) := by decide +kernel

/-- **C142** (partial) For all values: every call in the repository of the functions listed, except the ten of `Spec.broken`, gives every
parameter its value.  The full statement, that this holds for all of the calls, is false. -/
theorem C142_calls_partial {V : Type} (s : Site) (hs : s ∈ sites) (hb : (s.file, s.line) ∉ Spec.broken) (pos : List V)
    (kw : List (String × V)) (hp : pos.length = s.nPos) (hk : kw.map Prod.fst = s.kws) :
    ∃ r, bindArgs s.sig pos kw = .ok r ∧ r.length = s.sig.params.length ∧
      ∀ i p a, s.sig.params[i]? = some p → r[i]? = some a → Spec.Gets s.sig pos kw i p a := by
  refine (C142_binds s.sig (sites_nodup s hs) pos kw).1 ?_
  rw [hp, hk]
  exact (sites_shape s hs).mpr hb

/-- **C142** (false) For all values: each of these ten calls is a `TypeError`. -/
theorem C142_calls_false {V : Type} (s : Site) (hs : s ∈ sites) (hb : (s.file, s.line) ∈ Spec.broken) (pos : List V)
    (kw : List (String × V)) (hp : pos.length = s.nPos) (hk : kw.map Prod.fst = s.kws) : ∃ e, bindArgs s.sig pos kw = .error e := by
  refine (C142_binds s.sig (sites_nodup s hs) pos kw).2 fun h => ?_
  rw [hp, hk] at h
  exact (sites_shape s hs).mp h hb

/-- The geometry of the Uranus pipeline: the fifth positional argument is `pt_per_sec`, which is also given by name. -/
example : bindArgs geometry [1, 2, 3, 4, 5, 6, 7, 8, 9] [("pt_per_sec", 10), ("ref", 11), ("nhat_p", 12), ("ring_frame", 13),
    ("verbose", 14), ("write_file", 15)] = .error .twice ∧
    (⟨"pipeline/pipeline_uranus/geocal.py", 108, geometry, 9, ["pt_per_sec", "ref", "nhat_p", "ring_frame", "verbose", "write_file"]⟩ : Site) ∈
      sites := by
  refine ⟨by decide +kernel, ?_⟩
  simp only [sites, List.mem_cons, true_or, or_true]

end Verif.PyCall
