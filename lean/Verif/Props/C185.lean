import Verif.Model.HistText

/-!
# C185–C187: the histories in a label
-/
namespace Verif.HText

namespace Spec

/-- A history given directly, as a positional argument. -/
def First (pos : Dict) (n : String) (tag : Nat) (p q : Dict) : Prop := (n, Arg.hist tag p q) ∈ pos

/-- A history given directly, or as a positional argument of one given directly. -/
def Near (pos : Dict) (n : String) (tag : Nat) (p q : Dict) : Prop :=
  First pos n tag p q ∨ ∃ n' tag' p' q', First pos n' tag' p' q' ∧ (n, Arg.hist tag p q) ∈ p'

/-- No history is deeper than in two steps along positional arguments without one of the same name that is. -/
structure Shallow (pos kw : Dict) : Prop where
  distinct : (pos.map (·.1)).Nodup
  positional : ∀ n t p q, First pos n t p q → ∀ m t' p' q', (m, Arg.hist t' p' q') ∉ q
  own : ∀ m t p q, (m, Arg.hist t p q) ∈ kw → ∃ t' p' q', Near pos m t' p' q'
  closed : ∀ n t p q, Near pos n t p q → ∀ m t' p' q', (m, Arg.hist t' p' q') ∈ p ++ q → ∃ t'' p'' q'', Near pos m t'' p'' q''

end Spec

open Spec

/-! ## Lemmas on dictionaries -/

theorem get_put_same (d : Dict) (k : String) (v : Arg) : get (put d k v) k = some v := by
  unfold get put
  split
  · rename_i h
    rw [List.find?_map]
    obtain ⟨e, he, hk⟩ := List.any_eq_true.mp h
    have hc : ((fun e : String × Arg => e.1 == k) ∘ fun e => if e.1 == k then (k, v) else e) = fun e => e.1 == k := by
      funext e
      simp only [Function.comp]
      split
      · rename_i h; rw [h]; simp
      · rfl
    rw [hc]
    cases hf : d.find? (fun e => e.1 == k) with
    | none => exact absurd hk (by simpa using List.find?_eq_none.mp hf e he)
    | some x =>
      have := List.find?_some hf
      simp at this
      simp [this]
  · rename_i h
    rw [List.find?_append]
    have : d.find? (fun e => e.1 == k) = none := by
      rw [List.find?_eq_none]
      intro e he hk
      exact h (List.any_eq_true.mpr ⟨e, he, hk⟩)
    rw [this]
    simp

theorem get_put_other (d : Dict) {k k' : String} (v : Arg) (h : k' ≠ k) : get (put d k v) k' = get d k' := by
  unfold get put
  split
  · rw [List.find?_map]
    have hc : ((fun e : String × Arg => e.1 == k') ∘ fun e => if e.1 == k then (k, v) else e) = fun e => e.1 == k' := by
      funext e
      simp only [Function.comp]
      split
      · rename_i h'
        have : e.1 = k := by simpa using h'
        rw [this]
      · rfl
    rw [hc]
    cases hf : d.find? (fun e => e.1 == k') with
    | none => rfl
    | some x =>
      have := List.find?_some hf
      have hx : x.1 = k' := by simpa using this
      have hne : x.1 ≠ k := by rw [hx]; exact h
      simp [hne]
  · rw [List.find?_append]
    cases hf : d.find? (fun e => e.1 == k') with
    | none =>
      have : k ≠ k' := fun e => h e.symm
      simp [this]
    | some x => rfl

theorem get_of_mem {d : Dict} (hd : (d.map (·.1)).Nodup) {k : String} {v : Arg} (h : (k, v) ∈ d) : get d k = some v := by
  induction d with
  | nil => cases h
  | cons e d ih =>
    simp only [List.map_cons, List.nodup_cons] at hd
    unfold get
    rw [List.find?_cons]
    rcases List.mem_cons.mp h with rfl | h
    · simp
    · have hne : (e.1 == k) = false := by
        have : e.1 ≠ k := by
          rintro rfl
          exact hd.1 (List.mem_map_of_mem (f := (·.1)) h)
        simpa using this
      rw [hne]
      exact ih hd.2 h

theorem mem_of_get {d : Dict} {k : String} {v : Arg} (h : get d k = some v) : (k, v) ∈ d := by
  unfold get at h
  cases hf : d.find? (fun e => e.1 == k) with
  | none => rw [hf] at h; cases h
  | some x =>
    rw [hf] at h
    simp only [Option.map_some, Option.some.injEq] at h
    have h1 := List.find?_some hf
    have h2 := List.mem_of_find?_eq_some hf
    have hx : x.1 = k := by simpa using h1
    rw [← hx, ← h]
    exact h2

theorem mem_direct {pos : Dict} {n : String} : n ∈ direct pos ↔ ∃ t p q, First pos n t p q := by
  unfold direct
  simp only [List.mem_map, List.mem_filter]
  constructor
  · rintro ⟨⟨m, v⟩, ⟨hm, hv⟩, rfl⟩
    cases v with
    | text => cases hv
    | hist t p q => exact ⟨t, p, q, hm⟩
  · rintro ⟨t, p, q, h⟩
    exact ⟨(n, .hist t p q), ⟨h, rfl⟩, rfl⟩

/-! ## Collecting -/

/-- What holds while histories are collected. -/
structure Good (name : String) (pos kw : Dict) (s : State) : Prop where
  head : ∃ l, s.keys = name :: l
  kw_eq : s.kw = kw
  old : ∀ k, k ∈ direct pos → get s.pos k = get pos k
  incl : ∀ k, k ∈ direct pos → k ∈ s.keys.tail
  near : ∀ k, k ∈ s.keys.tail → ∃ t p q, get s.pos k = some (.hist t p q) ∧ Near pos k t p q

theorem addPos_good {name : String} {pos kw : Dict} {s : State} (hs : Good name pos kw s) {e : String × Arg}
    (he : ∀ t p q, e.2 = .hist t p q → Near pos e.1 t p q) :
    Good name pos kw (addPos s e) ∧ (∀ k, k ∈ s.keys → k ∈ (addPos s e).keys) ∧ (isHist e.2 = true → e.1 ∈ (addPos s e).keys) := by
  unfold addPos
  split
  · rename_i h
    simp only [Bool.and_eq_true, Bool.not_eq_true', List.contains_eq_mem, decide_eq_false_iff_not] at h
    obtain ⟨l, hl⟩ := hs.head
    have hne : ∀ k ∈ s.keys.tail, k ≠ e.1 := by
      rintro k hk rfl
      exact h.2 (List.mem_of_mem_tail hk)
    refine ⟨⟨⟨l ++ [e.1], by rw [hl]; rfl⟩, hs.kw_eq, ?_, ?_, ?_⟩, ?_, ?_⟩
    · intro k hk
      rw [get_put_other _ _ (hne k (hs.incl k hk))]
      exact hs.old k hk
    · intro k hk
      have := hs.incl k hk
      simp only [hl, List.cons_append, List.tail_cons, List.mem_append] at this ⊢
      exact Or.inl this
    · intro k hk
      simp only [hl, List.cons_append, List.tail_cons, List.mem_append, List.mem_singleton] at hk
      rcases hk with hk | rfl
      · have hk' : k ∈ s.keys.tail := by rw [hl]; exact hk
        simp only
        rw [get_put_other _ _ (hne k hk')]
        exact hs.near k hk'
      · cases hv : e.2 with
        | text => rw [hv] at h; cases h.1
        | hist t p q => exact ⟨t, p, q, get_put_same _ _ _, he t p q hv⟩
    · intro k hk; exact List.mem_append_left _ hk
    · intro _; simp
  · rename_i h
    refine ⟨hs, fun k hk => hk, fun hh => ?_⟩
    rw [hh] at h
    simpa using h

theorem foldl_addPos {name : String} {pos kw : Dict} (p : Dict) : ∀ {s : State}, Good name pos kw s →
    (∀ e ∈ p, ∀ t p' q, e.2 = .hist t p' q → Near pos e.1 t p' q) →
    Good name pos kw (p.foldl addPos s) ∧ (∀ k, k ∈ s.keys → k ∈ (p.foldl addPos s).keys) ∧
      ∀ e ∈ p, isHist e.2 = true → e.1 ∈ (p.foldl addPos s).keys := by
  induction p with
  | nil => intro s hs _; exact ⟨hs, fun k hk => hk, by simp⟩
  | cons e p ih =>
    intro s hs he
    obtain ⟨h1, h2, h3⟩ := addPos_good hs (he e (by simp))
    obtain ⟨g1, g2, g3⟩ := ih h1 (fun e' h' => he e' (by simp [h']))
    refine ⟨g1, fun k hk => g2 k (h2 k hk), ?_⟩
    intro e' he' hh
    rcases List.mem_cons.mp he' with rfl | h
    · exact g2 _ (h3 hh)
    · exact g3 e' h hh

theorem foldl_addKw_none (k : Dict) (h : ∀ e ∈ k, isHist e.2 = false) : ∀ s : State, k.foldl addKw s = s := by
  induction k with
  | nil => intro s; rfl
  | cons e k ih =>
    intro s
    have : addKw s e = s := by unfold addKw; rw [h e (by simp)]; rfl
    rw [List.foldl_cons, this]
    exact ih (fun e' h' => h e' (by simp [h'])) s

theorem extra_good {name : String} {pos kw : Dict} (hp : Shallow pos kw) {s : State} (hs : Good name pos kw s) {n : String} {t : Nat} {p q : Dict}
    (hf : First pos n t p q) : ∃ s', extra s n = some s' ∧ Good name pos kw s' ∧ (∀ k, k ∈ s.keys → k ∈ s'.keys) ∧
      ∀ m t' p' q', (m, Arg.hist t' p' q') ∈ p → m ∈ s'.keys := by
  have hg : get s.pos n = some (.hist t p q) := by
    rw [hs.old n (mem_direct.mpr ⟨t, p, q, hf⟩)]
    exact get_of_mem hp.distinct hf
  unfold extra
  rw [hg]
  simp only
  have hq : ∀ e ∈ q, isHist e.2 = false := by
    rintro ⟨m, v⟩ he
    cases v with
    | text => rfl
    | hist t' p' q' => exact absurd he (hp.positional n t p q hf m t' p' q')
  rw [foldl_addKw_none q hq]
  obtain ⟨h1, h2, h3⟩ := foldl_addPos (name := name) (pos := pos) (kw := kw) p hs (by
    rintro ⟨m, v⟩ he t' p' q' hv
    simp only at hv
    subst hv
    exact Or.inr ⟨n, t, p, q, hf, he⟩)
  exact ⟨_, rfl, h1, h2, fun m t' p' q' hm => h3 (m, .hist t' p' q') hm rfl⟩

theorem fold_good {name : String} {pos kw : Dict} (hp : Shallow pos kw) : ∀ (l : List String) {s : State}, Good name pos kw s →
    (∀ n ∈ l, ∃ t p q, First pos n t p q) → ∃ s', l.foldlM extra s = some s' ∧ Good name pos kw s' ∧ (∀ k, k ∈ s.keys → k ∈ s'.keys) ∧
      ∀ n ∈ l, ∀ t p q, First pos n t p q → ∀ m t' p' q', (m, Arg.hist t' p' q') ∈ p → m ∈ s'.keys := by
  intro l
  induction l with
  | nil => intro s hs _; exact ⟨s, rfl, hs, fun k hk => hk, by simp⟩
  | cons n l ih =>
    intro s hs hl
    obtain ⟨t, p, q, hf⟩ := hl n (by simp)
    obtain ⟨s1, e1, g1, m1, c1⟩ := extra_good hp hs hf
    obtain ⟨s2, e2, g2, m2, c2⟩ := ih g1 (fun n' h' => hl n' (by simp [h']))
    refine ⟨s2, ?_, g2, fun k hk => m2 k (m1 k hk), ?_⟩
    · rw [List.foldlM_cons, e1]; exact e2
    · intro n' hn' t0 p0 q0 hf0 m t' p' q' hm
      rcases List.mem_cons.mp hn' with rfl | h
      · have := (get_of_mem hp.distinct hf).symm.trans (get_of_mem hp.distinct hf0)
        simp only [Option.some.injEq, Arg.hist.injEq] at this
        exact m2 m (c1 m t' p' q' (this.2.1 ▸ hm))
      · exact c2 n' h t0 p0 q0 hf0 m t' p' q' hm

theorem collect_good {name : String} {pos kw : Dict} (hp : Shallow pos kw) : ∃ s, collect name pos kw = some s ∧ Good name pos kw s ∧
    ∀ m t p q, Near pos m t p q → m ∈ s.keys := by
  have h0 : Good name pos kw ⟨name :: direct pos, pos, kw⟩ := by
    refine ⟨⟨_, rfl⟩, rfl, fun k _ => rfl, fun k hk => hk, ?_⟩
    intro k hk
    obtain ⟨t, p, q, hf⟩ := mem_direct.mp hk
    exact ⟨t, p, q, get_of_mem hp.distinct hf, Or.inl hf⟩
  obtain ⟨s, e, g, m, c⟩ := fold_good hp (direct pos) h0 (fun n hn => mem_direct.mp hn)
  refine ⟨s, e, g, ?_⟩
  rintro k t p q (hf | ⟨n', t', p', q', hf, hk⟩)
  · exact m k (by simp [mem_direct.mpr ⟨t, p, q, hf⟩])
  · exact c n' (mem_direct.mpr ⟨t', p', q', hf⟩) t' p' q' hf k t p q hk

/-! ## Writing -/

/-- What is written of the other histories. -/
theorem others_spec (pos : Dict) : ∀ (ks w : List String), (∀ k ∈ ks, ∃ t p q, get pos k = some (.hist t p q)) →
    ∃ l, others pos w ks = some l ∧ l.map (·.name) = ks ∧ ∀ i sec, l[i]? = some sec →
      get pos sec.name = some (.hist sec.tag sec.pos sec.kw) ∧ sec.refs = refs (w ++ ks.take i) (sec.pos ++ sec.kw) := by
  intro ks
  induction ks with
  | nil => intro w _; exact ⟨[], rfl, rfl, by simp⟩
  | cons k ks ih =>
    intro w h
    obtain ⟨t, p, q, hg⟩ := h k (by simp)
    obtain ⟨l, h1, h2, h3⟩ := ih (w ++ [k]) (fun k' h' => h k' (by simp [h']))
    refine ⟨⟨k, t, p, q, refs w (p ++ q)⟩ :: l, ?_, by simp [h2], ?_⟩
    · unfold others
      rw [hg]
      simp only
      rw [h1]
      rfl
    · intro i sec hi
      cases i with
      | zero =>
        simp only [List.getElem?_cons_zero, Option.some.injEq] at hi
        subst hi
        exact ⟨hg, by simp⟩
      | succ i =>
        rw [List.getElem?_cons_succ] at hi
        obtain ⟨g1, g2⟩ := h3 i sec hi
        exact ⟨g1, by rw [g2]; simp⟩

/-- All about a label whose histories are near. -/
theorem write_spec {name : String} (tag : Nat) {pos kw : Dict} (hp : Shallow pos kw) : ∃ (w : Written) (s : State), write name tag pos kw = some w ∧
    Good name pos kw s ∧ (∀ m t p q, Near pos m t p q → m ∈ s.keys) ∧ w.pos = s.pos ∧ w.kw = kw ∧ w.sections.map (·.name) = s.keys ∧
    ∀ (i : Nat) (sec : Section), w.sections[i]? = some sec →
      ((i = 0 ∧ sec.tag = tag ∧ sec.pos = s.pos ∧ sec.kw = kw) ∨
        (0 < i ∧ get s.pos sec.name = some (.hist sec.tag sec.pos sec.kw) ∧ Near pos sec.name sec.tag sec.pos sec.kw)) ∧
      sec.refs = refs (s.keys.take i) (sec.pos ++ sec.kw) := by
  obtain ⟨s, hc, hg, hn⟩ := collect_good (name := name) hp
  obtain ⟨l, h1, h2, h3⟩ := others_spec s.pos s.keys.tail [name] (fun k hk => by
    obtain ⟨t, p, q, h, _⟩ := hg.near k hk
    exact ⟨t, p, q, h⟩)
  obtain ⟨ks, hk⟩ := hg.head
  refine ⟨⟨⟨name, tag, s.pos, s.kw, refs [] (s.pos ++ s.kw)⟩ :: l, s.pos, s.kw⟩, s, ?_, hg, hn, rfl, hg.kw_eq, ?_, ?_⟩
  · unfold write
    rw [hc]
    simp only
    rw [h1]
  · simp only [List.map_cons, h2]
    rw [hk]
    rfl
  · intro i sec hi
    cases i with
    | zero =>
      simp only [List.getElem?_cons_zero, Option.some.injEq] at hi
      subst hi
      exact ⟨Or.inl ⟨rfl, rfl, rfl, hg.kw_eq⟩, rfl⟩
    | succ i =>
      simp only [List.getElem?_cons_succ] at hi
      obtain ⟨g1, g2⟩ := h3 i sec hi
      refine ⟨Or.inr ⟨by omega, g1, ?_⟩, ?_⟩
      · have hm : sec.name ∈ s.keys.tail := by
          rw [← h2]
          exact List.mem_map_of_mem (List.mem_of_getElem? hi)
        obtain ⟨t, p, q, e, hN⟩ := hg.near _ hm
        rw [g1] at e
        simp only [Option.some.injEq, Arg.hist.injEq] at e
        rw [e.1, e.2.1, e.2.2]
        exact hN
      · rw [g2, hk]; rfl

theorem put_cases {d : Dict} {k : String} {v : Arg} {e : String × Arg} (h : e ∈ put d k v) : e ∈ d ∨ e = (k, v) := by
  unfold put at h
  split at h
  · obtain ⟨x, hx, rfl⟩ := List.mem_map.mp h
    split
    · exact Or.inr rfl
    · exact Or.inl hx
  · simpa using h

/-- The histories among the arguments of the first one are near, also those that were added. -/
theorem pos_near {name : String} {pos kw : Dict} {p : Dict} : ∀ {s : State}, (∀ e ∈ s.pos, ∀ t p' q, e.2 = .hist t p' q → Near pos e.1 t p' q) →
    (∀ e ∈ p, ∀ t p' q, e.2 = .hist t p' q → Near pos e.1 t p' q) →
    ∀ e ∈ (p.foldl addPos s).pos, ∀ t p' q, e.2 = .hist t p' q → Near pos e.1 t p' q := by
  induction p with
  | nil => intro s hs _; exact hs
  | cons e p ih =>
    intro s hs he
    rw [List.foldl_cons]
    refine ih (s := addPos s e) ?_ (fun e' h' => he e' (by simp [h']))
    intro e' h'
    unfold addPos at h'
    split at h'
    · rcases put_cases h' with h | rfl
      · exact hs e' h
      · exact he e (by simp)
    · exact hs e' h'

theorem collect_pos_near {name : String} {pos kw : Dict} (hp : Shallow pos kw) {s : State} (h : collect name pos kw = some s) :
    ∀ e ∈ s.pos, ∀ t p' q, e.2 = .hist t p' q → Near pos e.1 t p' q := by
  have key : ∀ (l : List String) (s0 s1 : State), (∀ n ∈ l, ∃ t p q, First pos n t p q) → Good name pos kw s0 →
      (∀ e ∈ s0.pos, ∀ t p' q, e.2 = .hist t p' q → Near pos e.1 t p' q) → l.foldlM extra s0 = some s1 →
      ∀ e ∈ s1.pos, ∀ t p' q, e.2 = .hist t p' q → Near pos e.1 t p' q := by
    intro l
    induction l with
    | nil =>
      intro s0 s1 _ _ h0 e1
      simp only [List.foldlM_nil, pure, Option.some.injEq] at e1
      exact e1 ▸ h0
    | cons n l ih =>
      intro s0 s1 hl hg h0 e1
      obtain ⟨t, p, q, hf⟩ := hl n (by simp)
      obtain ⟨s', e', g', _, _⟩ := extra_good hp hg hf
      rw [List.foldlM_cons, e'] at e1
      refine ih s' s1 (fun n' h' => hl n' (by simp [h'])) g' ?_ e1
      have hgt : get s0.pos n = some (.hist t p q) := by
        rw [hg.old n (mem_direct.mpr ⟨t, p, q, hf⟩)]
        exact get_of_mem hp.distinct hf
      unfold extra at e'
      rw [hgt] at e'
      simp only [Option.some.injEq] at e'
      have hq : ∀ e ∈ q, isHist e.2 = false := by
        rintro ⟨m, v⟩ he
        cases v with
        | text => rfl
        | hist t' p' q' => exact absurd he (hp.positional n t p q hf m t' p' q')
      rw [foldl_addKw_none q hq] at e'
      rw [← e']
      refine pos_near (name := name) (kw := kw) h0 ?_
      rintro ⟨m, v⟩ he t' p' q' hv
      simp only at hv
      subst hv
      exact Or.inr ⟨n, t, p, q, hf, he⟩
  refine key (direct pos) _ s (fun n hn => mem_direct.mp hn) ?_ ?_ h
  · refine ⟨⟨_, rfl⟩, rfl, fun k _ => rfl, fun k hk => hk, ?_⟩
    intro k hk
    obtain ⟨t, p, q, hf⟩ := mem_direct.mp hk
    exact ⟨t, p, q, get_of_mem hp.distinct hf, Or.inl hf⟩
  · rintro ⟨m, v⟩ he t p' q hv
    simp only at hv
    subst hv
    exact Or.inl he

/-- What the sections of a label hold. -/
theorem sections_hold {name : String} {tag : Nat} {pos kw : Dict} (hp : Shallow pos kw) {w : Written} (h : write name tag pos kw = some w) :
    ∀ (i : Nat) (sec : Section), w.sections[i]? = some sec → ∀ m t p q, (m, Arg.hist t p q) ∈ sec.pos ++ sec.kw →
      Near pos m t p q ∨ (m, Arg.hist t p q) ∈ kw ∨ ∃ n t' p' q', Near pos n t' p' q' ∧ (m, Arg.hist t p q) ∈ p' ++ q' := by
  obtain ⟨w', s, hw, hg, hn, h1, h2, h3, h4⟩ := write_spec (name := name) tag hp
  obtain rfl : w = w' := Option.some.inj (h.symm.trans hw)
  intro i sec hi m t p q hm
  obtain ⟨hcase, _⟩ := h4 i sec hi
  rcases hcase with ⟨_, _, e2, e3⟩ | ⟨_, _, hN⟩
  · rw [e2, e3] at hm
    rcases List.mem_append.mp hm with hm | hm
    · obtain ⟨s', hc, _⟩ := collect_good (name := name) hp
      have hs : s'.pos = s.pos := by
        unfold write at hw
        rw [hc] at hw
        simp only at hw
        split at hw
        · cases hw
        · have := Option.some.inj hw
          rw [← h1, ← this]
      exact Or.inl (collect_pos_near hp hc (m, .hist t p q) (hs ▸ hm) t p q rfl)
    · exact Or.inr (Or.inl hm)
  · exact Or.inr (Or.inr ⟨_, _, _, _, hN, hm⟩)

/-- What the sections of a label refer to. -/
theorem sections_near {name : String} {tag : Nat} {pos kw : Dict} (hp : Shallow pos kw) {w : Written} (h : write name tag pos kw = some w) :
    ∀ (i : Nat) (sec : Section), w.sections[i]? = some sec → ∀ m t p q, (m, Arg.hist t p q) ∈ sec.pos ++ sec.kw →
      ∃ t' p' q', Near pos m t' p' q' := by
  intro i sec hi m t p q hm
  rcases sections_hold hp h i sec hi m t p q hm with h | h | ⟨n, t', p', q', hN, hm⟩
  · exact ⟨t, p, q, h⟩
  · exact hp.own m t p q h
  · exact hp.closed _ _ _ _ hN m t p q hm

/-- **C185.** If histories are nested at most two deep along positional arguments, every reference of a label is to a history of that label: above if it says
so, and otherwise not above; and every history given directly or in two steps is shown. -/
theorem C185_refs_partial {name : String} (tag : Nat) {pos kw : Dict} (hp : Shallow pos kw) : ∃ w, write name tag pos kw = some w ∧
    (∀ (i : Nat) (sec : Section), w.sections[i]? = some sec → ∀ r ∈ sec.refs, ∃ (j : Nat) (sec' : Section), w.sections[j]? = some sec' ∧ sec'.name = r.1 ∧
      (r.2 = true → j < i) ∧ (r.2 = false → i ≤ j)) ∧
    ∀ m t p q, Near pos m t p q → m ∈ w.sections.map (·.name) := by
  obtain ⟨w, s, hw, hg, hn, h1, h2, h3, h4⟩ := write_spec (name := name) tag hp
  refine ⟨w, hw, ?_, fun m t p q h => h3 ▸ hn m t p q h⟩
  intro i sec hi r hr
  have hnear := sections_near hp hw i sec hi
  obtain ⟨_, hrefs⟩ := h4 i sec hi
  rw [hrefs] at hr
  unfold refs at hr
  obtain ⟨⟨m, v⟩, hm, rfl⟩ := List.mem_map.mp hr
  obtain ⟨hm, hv⟩ := List.mem_filter.mp hm
  cases v with
  | text => cases hv
  | hist t p q =>
    obtain ⟨t', p', q', hN⟩ := hnear m t p q hm
    have hmem : m ∈ s.keys := hn m t' p' q' hN
    by_cases hw' : m ∈ s.keys.take i
    · obtain ⟨j, hj, hjm⟩ := List.mem_iff_getElem.mp hw'
      have hji : j < i := by simp only [List.length_take] at hj; omega
      have hk : (w.sections.map (·.name))[j]? = some m := by
        rw [h3]
        have hlt : j < s.keys.length := by simp only [List.length_take] at hj; omega
        rw [List.getElem?_eq_getElem hlt]
        rw [List.getElem_take] at hjm
        rw [hjm]
      rw [List.getElem?_map] at hk
      cases hs : w.sections[j]? with
      | none => rw [hs] at hk; cases hk
      | some sec' =>
        rw [hs] at hk
        refine ⟨j, sec', hs, by simpa using hk, fun _ => hji, ?_⟩
        intro hf
        simp [hw'] at hf
    · obtain ⟨j, hj, hjm⟩ := List.mem_iff_getElem.mp hmem
      have hji : i ≤ j := by
        rcases Nat.lt_or_ge j i with h | h
        · exfalso
          apply hw'
          rw [← hjm]
          exact List.mem_iff_getElem.mpr ⟨j, by simp only [List.length_take]; omega, by rw [List.getElem_take]⟩
        · exact h
      have hk : (w.sections.map (·.name))[j]? = some m := by
        rw [h3, List.getElem?_eq_getElem hj, hjm]
      rw [List.getElem?_map] at hk
      cases hs : w.sections[j]? with
      | none => rw [hs] at hk; cases hk
      | some sec' =>
        rw [hs] at hk
        refine ⟨j, sec', hs, by simpa using hk, ?_, fun _ => hji⟩
        intro ht
        simp [hw'] at ht

/-- The history of a reader, of a geometry made from it, and of a calibration made from both. -/
def rsrHist (tag : Nat) : Arg := .hist tag [("rsr_file", .text)] []
def geoHist (tag : Nat) : Arg := .hist 2 [("rsr_inst", rsrHist tag), ("kernels", .text)] []
def calHist (tag : Nat) : Arg := .hist 3 [("rsr_inst", rsrHist tag), ("geo_inst", geoHist tag)] [("pnf_order", .text)]

/-- The arguments of a diffraction-limited profile made from a reader `a` with a calibration made from a reader `b`. -/
def dlpArgs (a b : Nat) : Dict := [("rsr_inst", rsrHist a), ("geo_inst", geoHist a), ("cal_inst", calHist b), ("dr_km", .text)]

/-- Every history among the arguments of a profile is that of a reader, of a geometry or of a calibration. -/
theorem near_dlp {a b : Nat} {n : String} {t : Nat} {p q : Dict} (h : Near (dlpArgs a b) n t p q) :
    (n = "rsr_inst" ∧ (Arg.hist t p q = rsrHist a ∨ Arg.hist t p q = rsrHist b)) ∨
    (n = "geo_inst" ∧ (Arg.hist t p q = geoHist a ∨ Arg.hist t p q = geoHist b)) ∨ (n = "cal_inst" ∧ Arg.hist t p q = calHist b) := by
  rcases h with h | ⟨n', t', p', q', h, hm⟩
  · simp only [First, dlpArgs, List.mem_cons, Prod.mk.injEq, List.not_mem_nil, or_false] at h
    rcases h with ⟨rfl, h⟩ | ⟨rfl, h⟩ | ⟨rfl, h⟩ | ⟨_, h⟩
    · exact Or.inl ⟨rfl, Or.inl h⟩
    · exact Or.inr (Or.inl ⟨rfl, Or.inl h⟩)
    · exact Or.inr (Or.inr ⟨rfl, h⟩)
    · cases h
  · simp only [First, dlpArgs, List.mem_cons, Prod.mk.injEq, List.not_mem_nil, or_false] at h
    rcases h with ⟨rfl, h⟩ | ⟨rfl, h⟩ | ⟨rfl, h⟩ | ⟨_, h⟩
    · simp only [rsrHist, Arg.hist.injEq] at h
      obtain ⟨_, rfl, _⟩ := h
      simp at hm
    · simp only [geoHist, Arg.hist.injEq] at h
      obtain ⟨_, rfl, _⟩ := h
      simp only [List.mem_cons, Prod.mk.injEq, List.not_mem_nil, or_false] at hm
      rcases hm with ⟨rfl, h⟩ | ⟨_, h⟩
      · exact Or.inl ⟨rfl, Or.inl h⟩
      · cases h
    · simp only [calHist, Arg.hist.injEq] at h
      obtain ⟨_, rfl, _⟩ := h
      simp only [List.mem_cons, Prod.mk.injEq, List.not_mem_nil, or_false] at hm
      rcases hm with ⟨rfl, h⟩ | ⟨rfl, h⟩
      · exact Or.inl ⟨rfl, Or.inr h⟩
      · exact Or.inr (Or.inl ⟨rfl, Or.inr h⟩)
    · cases h

theorem inner_dlp {b : Nat} {v : Arg} {t : Nat} {p q : Dict} (hv : Arg.hist t p q = v) (h : v = rsrHist b ∨ v = geoHist b ∨ v = calHist b) :
    ∀ m t' p' q', (m, Arg.hist t' p' q') ∈ p ++ q → (m = "rsr_inst" ∧ Arg.hist t' p' q' = rsrHist b) ∨ (m = "geo_inst" ∧ Arg.hist t' p' q' = geoHist b) := by
  intro m t' p' q' hm
  rcases h with h | h | h <;> rw [h] at hv <;> simp only [rsrHist, geoHist, calHist, Arg.hist.injEq] at hv <;> obtain ⟨_, rfl, rfl⟩ := hv <;>
    simp only [List.append_nil, List.cons_append, List.nil_append, List.mem_cons, Prod.mk.injEq, List.not_mem_nil, or_false] at hm
  · rcases hm with ⟨_, h⟩; cases h
  · rcases hm with ⟨rfl, h⟩ | ⟨_, h⟩
    · exact Or.inl ⟨rfl, h⟩
    · cases h
  · rcases hm with ⟨rfl, h⟩ | ⟨rfl, h⟩ | ⟨_, h⟩
    · exact Or.inl ⟨rfl, h⟩
    · exact Or.inr ⟨rfl, h⟩
    · cases h

/-- The arguments of a profile are as the theorems want them. -/
theorem shallow_dlp (a b : Nat) : Shallow (dlpArgs a b) [("profile_range", .text)] := by
  have h1 : Near (dlpArgs a b) "rsr_inst" a [("rsr_file", .text)] [] := Or.inl (by simp [First, dlpArgs, rsrHist])
  have h2 : Near (dlpArgs a b) "geo_inst" 2 [("rsr_inst", rsrHist a), ("kernels", .text)] [] := Or.inl (by simp [First, dlpArgs, geoHist])
  refine ⟨by simp [dlpArgs], ?_, ?_, ?_⟩
  · intro n t p q hf m t' p' q'
    simp only [First, dlpArgs, List.mem_cons, Prod.mk.injEq, List.not_mem_nil, or_false] at hf
    rcases hf with ⟨rfl, h⟩ | ⟨rfl, h⟩ | ⟨rfl, h⟩ | ⟨_, h⟩
    · simp only [rsrHist, Arg.hist.injEq] at h; obtain ⟨_, _, rfl⟩ := h; simp
    · simp only [geoHist, Arg.hist.injEq] at h; obtain ⟨_, _, rfl⟩ := h; simp
    · simp only [calHist, Arg.hist.injEq] at h; obtain ⟨_, _, rfl⟩ := h; simp
    · cases h
  · intro m t p q h; simp at h
  · intro n t p q hN m t' p' q' hm
    have : (m = "rsr_inst") ∨ (m = "geo_inst") := by
      rcases near_dlp hN with ⟨_, h | h⟩ | ⟨_, h | h⟩ | ⟨_, h⟩
      · rcases inner_dlp h (Or.inl rfl) m t' p' q' hm with h | h
        · exact Or.inl h.1
        · exact Or.inr h.1
      · rcases inner_dlp h (Or.inl rfl) m t' p' q' hm with h | h
        · exact Or.inl h.1
        · exact Or.inr h.1
      · rcases inner_dlp h (Or.inr (Or.inl rfl)) m t' p' q' hm with h | h
        · exact Or.inl h.1
        · exact Or.inr h.1
      · rcases inner_dlp h (Or.inr (Or.inl rfl)) m t' p' q' hm with h | h
        · exact Or.inl h.1
        · exact Or.inr h.1
      · rcases inner_dlp h (Or.inr (Or.inr rfl)) m t' p' q' hm with h | h
        · exact Or.inl h.1
        · exact Or.inr h.1
    rcases this with rfl | rfl
    · exact ⟨_, _, _, h1⟩
    · exact ⟨_, _, _, h2⟩

example : Shallow (dlpArgs 1 1) [("profile_range", .text)] := shallow_dlp 1 1

example : (write "DLP" 0 (dlpArgs 1 1) [("profile_range", .text)]).map (fun w => w.sections.map fun s => (s.name, s.refs)) =
    some [("DLP", [("rsr_inst", false), ("geo_inst", false), ("cal_inst", false)]), ("rsr_inst", []), ("geo_inst", [("rsr_inst", true)]),
      ("cal_inst", [("rsr_inst", true), ("geo_inst", true)])] := by decide +kernel

/-- **C185 is false of the code** for a history among the keyword arguments of another one: it is put among the keyword arguments of the object
and then looked for among the positional ones, and there is no label. -/
theorem C185_keyword_false : ¬ ∀ (name : String) (tag : Nat) (pos kw : Dict), (pos.map (·.1)).Nodup → write name tag pos kw ≠ none := by
  intro h
  have := h "TAU" 0 [("dlp_inst", .hist 1 [] [("cal_inst", .hist 2 [] [])])] [] (by simp)
  exact this rfl

example : (write "TAU" 0 [("dlp_inst", .hist 1 [] [("cal_inst", .hist 2 [] [])])] []).isNone = true ∧
    (write "TAU" 0 [("dlp_inst", .hist 1 [("cal_inst", .hist 2 [] [])] [])] []).isSome = true := by decide +kernel

/-- **C185 is false of the code** for histories nested three deep: the third is referred to as `below`, and it is not there. -/
theorem C185_deep_false : ¬ ∀ (name : String) (tag : Nat) (pos kw : Dict) (w : Written), (pos.map (·.1)).Nodup → write name tag pos kw = some w →
    ∀ sec ∈ w.sections, ∀ r ∈ sec.refs, r.1 ∈ w.sections.map (·.name) := by
  intro h
  have key : ∃ w, write "TAU" 0 [("dlp_inst", .hist 1 [("cal_inst", .hist 2 [("rsr_inst", .hist 3 [] [])] [])] [])] [] = some w ∧
      w.sections.map (·.name) = ["TAU", "dlp_inst", "cal_inst"] ∧ ∃ sec ∈ w.sections, ("rsr_inst", false) ∈ sec.refs := by
    refine ⟨_, rfl, by decide +kernel, ?_⟩
    refine ⟨⟨"cal_inst", 2, [("rsr_inst", .hist 3 [] [])], [], [("rsr_inst", false)]⟩, ?_, by simp⟩
    right; right; left
  obtain ⟨w, hw, hn, sec, hs, hr⟩ := key
  have := h "TAU" 0 _ [] w (by simp) hw sec hs _ hr
  rw [hn] at this
  revert this
  decide +kernel

example : (write "TAU" 0 [("dlp_inst", .hist 1 [("cal_inst", .hist 2 [("rsr_inst", .hist 3 [] [])] [])] [])] []).map
    (fun w => w.sections.map fun s => (s.name, s.refs)) = some [("TAU", [("dlp_inst", false), ("cal_inst", false)]), ("dlp_inst", [("cal_inst", false)]),
      ("cal_inst", [("rsr_inst", false)])] := by decide +kernel

/-! ## The right history -/

/-- **C186.** If in addition histories of the same name are the same, every reference is to the history that was given. -/
theorem C186_right_partial {name : String} (tag : Nat) {pos kw : Dict} (hp : Shallow pos kw)
    (huniq : ∀ m t p q t' p' q', Near pos m t p q → Near pos m t' p' q' → Arg.hist t p q = Arg.hist t' p' q')
    (hown : ∀ m t p q, (m, Arg.hist t p q) ∈ kw → Near pos m t p q)
    (hclosed : ∀ n t p q, Near pos n t p q → ∀ m t' p' q', (m, Arg.hist t' p' q') ∈ p ++ q → Near pos m t' p' q')
    (hname : ∀ t p q, ¬ Near pos name t p q) : ∃ w, write name tag pos kw = some w ∧
    ∀ (i : Nat) (sec : Section), w.sections[i]? = some sec → ∀ m t p q, (m, Arg.hist t p q) ∈ sec.pos ++ sec.kw →
      (∃ (j : Nat) (sec' : Section), w.sections[j]? = some sec' ∧ sec'.name = m) ∧
      ∀ (j : Nat) (sec' : Section), w.sections[j]? = some sec' → sec'.name = m → Arg.hist sec'.tag sec'.pos sec'.kw = .hist t p q := by
  obtain ⟨w, s, hw, hg, hn, h1, h2, h3, h4⟩ := write_spec (name := name) tag hp
  refine ⟨w, hw, ?_⟩
  intro i sec hi m t p q hm
  have hN : Near pos m t p q := by
    rcases sections_hold hp hw i sec hi m t p q hm with h | h | ⟨n, t', p', q', hN, hm⟩
    · exact h
    · exact hown _ _ _ _ h
    · exact hclosed _ _ _ _ hN _ _ _ _ hm
  constructor
  · have hk : m ∈ w.sections.map (·.name) := h3 ▸ hn m t p q hN
    obtain ⟨sec', hs, rfl⟩ := List.mem_map.mp hk
    obtain ⟨j, hj, hjs⟩ := List.mem_iff_getElem.mp hs
    exact ⟨j, sec', by rw [List.getElem?_eq_getElem hj, hjs], rfl⟩
  · intro j sec' hj hs
    obtain ⟨hcase, _⟩ := h4 j sec' hj
    rcases hcase with ⟨rfl, _⟩ | ⟨_, _, hN'⟩
    · exfalso
      obtain ⟨l, hl⟩ := hg.head
      have : (w.sections.map (·.name))[0]? = some name := by rw [h3, hl]; rfl
      rw [List.getElem?_map, hj] at this
      simp only [Option.map_some, Option.some.injEq] at this
      rw [hs] at this
      exact hname t p q (this ▸ hN)
    · exact huniq _ _ _ _ _ _ _ (hs ▸ hN') hN

example (a : Nat) : (∀ m t p q t' p' q', Near (dlpArgs a a) m t p q → Near (dlpArgs a a) m t' p' q' → Arg.hist t p q = Arg.hist t' p' q') ∧
    ∀ t p q, ¬ Near (dlpArgs a a) "DiffractionLimitedProfile history" t p q := by
  refine ⟨?_, ?_⟩
  · intro m t p q t' p' q' h h'
    rcases near_dlp h with ⟨e, h | h⟩ | ⟨e, h | h⟩ | ⟨e, h⟩ <;> rcases near_dlp h' with ⟨e', h' | h'⟩ | ⟨e', h' | h'⟩ | ⟨e', h'⟩ <;>
      first
      | exact h.trans h'.symm
      | exact absurd (e.symm.trans e') (by decide +kernel)
  · intro t p q h
    rcases near_dlp h with ⟨e, _⟩ | ⟨e, _⟩ | ⟨e, _⟩ <;> exact absurd e (by decide +kernel)

/-- **C186 is false of the code**: for a profile from one reading of a recording with a calibration from another one (with a different filter, say), the calibration's
reader is shown as `see history above`, where the history of the other reader is. -/
theorem C186_right_false : ¬ ∀ (name : String) (tag : Nat) (pos kw : Dict) (w : Written), Shallow pos kw → write name tag pos kw = some w →
    ∀ sec ∈ w.sections, ∀ m t p q, (m, Arg.hist t p q) ∈ sec.pos ++ sec.kw → ∀ sec' ∈ w.sections, sec'.name = m → sec'.tag = t := by
  intro h
  have := h "DLP" 0 (dlpArgs 1 5) [("profile_range", .text)] _ (shallow_dlp 1 5) rfl
    ⟨"cal_inst", 3, [("rsr_inst", rsrHist 5), ("geo_inst", geoHist 5)], [("pnf_order", .text)], [("rsr_inst", true), ("geo_inst", true)]⟩
    (by right; right; right; left) "rsr_inst" 5 [("rsr_file", .text)] [] (by simp [rsrHist])
    ⟨"rsr_inst", 1, [("rsr_file", .text)], [], []⟩ (by right; left) rfl
  cases this

example : (write "DLP" 0 (dlpArgs 1 5) [("profile_range", .text)]).map (fun w => w.sections.map fun s => (s.name, s.tag)) =
    some [("DLP", 0), ("rsr_inst", 1), ("geo_inst", 2), ("cal_inst", 3)] := by decide +kernel

/-! ## What writing does to the object -/

theorem addPos_known {s : State} {e : String × Arg} (h : isHist e.2 = true → e.1 ∈ s.keys) : addPos s e = s := by
  unfold addPos
  split
  · rename_i h'
    simp only [Bool.and_eq_true, Bool.not_eq_true', List.contains_eq_mem, decide_eq_false_iff_not] at h'
    exact absurd (h h'.1) h'.2
  · rfl

theorem foldl_addPos_known (p : Dict) : ∀ {s : State}, (∀ e ∈ p, isHist e.2 = true → e.1 ∈ s.keys) → p.foldl addPos s = s := by
  induction p with
  | nil => intro s _; rfl
  | cons e p ih =>
    intro s h
    rw [List.foldl_cons, addPos_known (h e (by simp))]
    exact ih (fun e' h' => h e' (by simp [h']))

/-- **C187.** If every history in the arguments of an argument has the name of an argument, as with calibrations and profiles, writing the label leaves the
history of the object as it is, and the label shows the arguments that were given and the histories of exactly those. -/
theorem C187_kept_partial {name : String} (tag : Nat) {pos kw : Dict} (hp : Shallow pos kw)
    (hin : ∀ n t p q, First pos n t p q → ∀ m t' p' q', (m, Arg.hist t' p' q') ∈ p → ∃ t'' p'' q'', First pos m t'' p'' q'') :
    ∃ w, write name tag pos kw = some w ∧ w.pos = pos ∧ w.kw = kw ∧ w.sections.map (·.name) = name :: direct pos ∧
      ∀ sec, w.sections[0]? = some sec → sec.pos = pos ∧ sec.kw = kw := by
  have hc : collect name pos kw = some ⟨name :: direct pos, pos, kw⟩ := by
    unfold collect
    have key : ∀ l : List String, (∀ n ∈ l, n ∈ direct pos) → l.foldlM extra ⟨name :: direct pos, pos, kw⟩ = some ⟨name :: direct pos, pos, kw⟩ := by
      intro l
      induction l with
      | nil => intro _; rfl
      | cons n l ih =>
        intro hl
        obtain ⟨t, p, q, hf⟩ := mem_direct.mp (hl n (by simp))
        have he : extra ⟨name :: direct pos, pos, kw⟩ n = some ⟨name :: direct pos, pos, kw⟩ := by
          unfold extra
          simp only
          rw [get_of_mem hp.distinct hf]
          simp only
          rw [foldl_addKw_none q, foldl_addPos_known]
          · rintro ⟨m, v⟩ hm hv
            cases v with
            | text => cases hv
            | hist t' p' q' =>
              obtain ⟨t'', p'', q'', h⟩ := hin n t p q hf m t' p' q' hm
              exact List.mem_cons_of_mem _ (mem_direct.mpr ⟨_, _, _, h⟩)
          · rintro ⟨m, v⟩ he
            cases v with
            | text => rfl
            | hist t' p' q' => exact absurd he (hp.positional n t p q hf m t' p' q')
        rw [List.foldlM_cons, he]
        exact ih (fun n' h' => hl n' (by simp [h']))
    exact key _ (fun n hn => hn)
  obtain ⟨l, h1, h2, _⟩ := others_spec pos (direct pos) [name] (fun k hk => by
    obtain ⟨t, p, q, hf⟩ := mem_direct.mp hk
    exact ⟨t, p, q, get_of_mem hp.distinct hf⟩)
  refine ⟨⟨⟨name, tag, pos, kw, refs [] (pos ++ kw)⟩ :: l, pos, kw⟩, ?_, rfl, rfl, by simp [h2], ?_⟩
  · unfold write
    rw [hc]
    simp only [List.tail_cons]
    rw [h1]
  · intro sec hs
    simp only [List.getElem?_cons_zero, Option.some.injEq] at hs
    subst hs
    exact ⟨rfl, rfl⟩

example (a b : Nat) : ∀ n t p q, First (dlpArgs a b) n t p q → ∀ m t' p' q', (m, Arg.hist t' p' q') ∈ p → ∃ t'' p'' q'', First (dlpArgs a b) m t'' p'' q'' := by
  intro n t p q hf m t' p' q' hm
  rcases near_dlp (Or.inr ⟨n, t, p, q, hf, hm⟩) with ⟨rfl, _⟩ | ⟨rfl, _⟩ | ⟨rfl, _⟩
  · exact ⟨a, [("rsr_file", .text)], [], by simp [First, dlpArgs, rsrHist]⟩
  · exact ⟨2, [("rsr_inst", rsrHist a), ("kernels", .text)], [], by simp [First, dlpArgs, geoHist]⟩
  · exact ⟨3, [("rsr_inst", rsrHist b), ("geo_inst", geoHist b)], [("pnf_order", .text)], by simp [First, dlpArgs, calHist]⟩

/-- **C187 is false of the code**: the label of an object whose argument has arguments with other histories shows these as arguments of the object, and
the object has them in its history from then on. -/
theorem C187_kept_false : ¬ ∀ (name : String) (tag : Nat) (pos kw : Dict) (w : Written), Shallow pos kw → write name tag pos kw = some w →
    w.pos.map (·.1) = pos.map (·.1) := by
  intro h
  have hs : Shallow [("dlp_inst", Arg.hist 1 [("rsr_inst", .hist 2 [] [])] [])] [] := by
    have hn : ∀ n t p q, Near [("dlp_inst", Arg.hist 1 [("rsr_inst", .hist 2 [] [])] [])] n t p q →
        (n = "dlp_inst" ∧ p = [("rsr_inst", .hist 2 [] [])] ∧ q = []) ∨ (n = "rsr_inst" ∧ p = [] ∧ q = []) := by
      intro n t p q hN
      rcases hN with h | ⟨n', t', p', q', h, hm⟩
      · simp [First] at h
        exact Or.inl ⟨h.1, h.2.2⟩
      · simp [First] at h
        obtain ⟨_, _, rfl, _⟩ := h
        simp at hm
        exact Or.inr ⟨hm.1, hm.2.2⟩
    refine ⟨by simp, ?_, by simp, ?_⟩
    · intro n t p q hf m t' p' q'
      rcases hn n t p q (Or.inl hf) with ⟨_, _, rfl⟩ | ⟨_, _, rfl⟩ <;> simp
    · intro n t p q hN m t' p' q' hm
      rcases hn n t p q hN with ⟨_, rfl, rfl⟩ | ⟨_, rfl, rfl⟩
      · simp at hm
        obtain ⟨rfl, _⟩ := hm
        exact ⟨2, [], [], Or.inr ⟨"dlp_inst", 1, _, _, by simp only [First, List.mem_singleton]; rfl, by simp⟩⟩
      · simp at hm
  have := h "TAU" 0 _ [] _ hs rfl
  revert this
  decide +kernel

example : (write "TAU" 0 [("dlp_inst", Arg.hist 1 [("rsr_inst", .hist 2 [] [])] [])] []).map (fun w => w.pos.map (·.1)) = some ["dlp_inst", "rsr_inst"] := by
  decide +kernel

/-! ## A history among keyword arguments -/

/-- The name `m` is to be shown and is not a history among the positional arguments; the keyword arguments have it. -/
def Stuck (m : String) (v : Arg) (s : State) : Prop := m ∈ s.keys.tail ∧ (∀ t p q, get s.pos m ≠ some (.hist t p q)) ∧ get s.kw m = some v

theorem mem_tail_append {m x : String} {l : List String} (h : m ∈ l.tail) : m ∈ (l ++ [x]).tail := by
  cases l with
  | nil => cases h
  | cons a l => exact List.mem_append_left _ h

theorem addKw_stuck {m : String} {v : Arg} {s : State} (h : Stuck m v s) (e : String × Arg) : Stuck m v (addKw s e) := by
  unfold addKw
  split
  · rename_i hc
    have hne : m ≠ e.1 := by
      intro he
      have := List.mem_of_mem_tail h.1
      rw [he] at this
      simp [this] at hc
    exact ⟨mem_tail_append h.1, h.2.1, by rw [get_put_other _ _ hne]; exact h.2.2⟩
  · exact h

theorem addPos_stuck {m : String} {v : Arg} {s : State} (h : Stuck m v s) (e : String × Arg) : Stuck m v (addPos s e) := by
  unfold addPos
  split
  · rename_i hc
    have hne : m ≠ e.1 := by
      intro he
      have := List.mem_of_mem_tail h.1
      rw [he] at this
      simp [this] at hc
    exact ⟨mem_tail_append h.1, by rw [get_put_other _ _ hne]; exact h.2.1, h.2.2⟩
  · exact h

theorem foldl_stuck {m : String} {v : Arg} (f : State → String × Arg → State) (hf : ∀ s e, Stuck m v s → Stuck m v (f s e)) (l : Dict) {s : State}
    (h : Stuck m v s) : Stuck m v (l.foldl f s) := by
  induction l generalizing s with
  | nil => exact h
  | cons e l ih => exact ih (hf s e h)

theorem extra_stuck {m : String} {v : Arg} {s s' : State} (h : Stuck m v s) {key : String} (he : extra s key = some s') : Stuck m v s' := by
  unfold extra at he
  split at he
  · injection he with he
    subst he
    exact foldl_stuck addPos (fun s e h => addPos_stuck h e) _ (foldl_stuck addKw (fun s e h => addKw_stuck h e) _ h)
  · cases he

theorem foldlM_stuck {m : String} {v : Arg} (l : List String) {s s' : State} (h : Stuck m v s) (he : l.foldlM extra s = some s') : Stuck m v s' := by
  induction l generalizing s with
  | nil => cases he; exact h
  | cons k l ih =>
    rw [List.foldlM_cons] at he
    cases h1 : extra s k with
    | none => rw [h1] at he; cases he
    | some s1 => rw [h1] at he; exact ih (extra_stuck h h1) he

theorem others_stuck {m : String} {pos : Dict} (h : ∀ t p q, get pos m ≠ some (.hist t p q)) (ks w : List String) (hm : m ∈ ks) : others pos w ks = none := by
  induction ks generalizing w with
  | nil => cases hm
  | cons k ks ih =>
    unfold others
    split
    · rename_i t p q hk
      rcases List.mem_cons.mp hm with rfl | hm
      · exact absurd hk (h t p q)
      · rw [ih _ hm]; rfl
    · rfl

theorem addKw_before {m : String} (l : Dict) (hl : m ∉ l.map (·.1)) {s : State} (hs : m ∉ s.keys) (hk : s.keys ≠ []) :
    m ∉ (l.foldl addKw s).keys ∧ (l.foldl addKw s).keys ≠ [] ∧ (l.foldl addKw s).pos = s.pos := by
  induction l generalizing s with
  | nil => exact ⟨hs, hk, rfl⟩
  | cons e l ih =>
    have hl' : m ≠ e.1 ∧ m ∉ l.map (·.1) := by
      rw [List.map_cons, List.mem_cons, not_or] at hl
      exact hl
    have h1 : m ∉ (addKw s e).keys ∧ (addKw s e).keys ≠ [] ∧ (addKw s e).pos = s.pos := by
      unfold addKw
      split
      · exact ⟨by simp [hs, hl'.1], by simp, rfl⟩
      · exact ⟨hs, hk, rfl⟩
    obtain ⟨a, b, c⟩ := ih hl'.2 h1.1 h1.2.1
    exact ⟨a, b, c.trans h1.2.2⟩

theorem collect_stuck {name n m : String} {t t' : Nat} {pos kw p q q1 q2 p' q' : Dict} {rest : List String} (hd : direct pos = n :: rest)
    (hn : get pos n = some (.hist t p q)) (hq : q = q1 ++ (m, .hist t' p' q') :: q2) (hq1 : m ∉ q1.map (·.1)) (hm : m ≠ name) (hmd : m ∉ direct pos) {s : State} (hs : collect name pos kw = some s) : Stuck m (.hist t' p' q') s := by
  have hnot : ∀ t p q, get pos m ≠ some (.hist t p q) := by
    intro t p q h
    apply hmd
    unfold direct
    exact List.mem_map.mpr ⟨(m, .hist t p q), List.mem_filter.mpr ⟨mem_of_get h, rfl⟩, rfl⟩
  unfold collect at hs
  rw [hd, List.foldlM_cons] at hs
  have he : extra ⟨name :: n :: rest, pos, kw⟩ n = some (p.foldl addPos (q.foldl addKw ⟨name :: n :: rest, pos, kw⟩)) := by
    unfold extra
    rw [hn]
  rw [he] at hs
  refine foldlM_stuck rest (foldl_stuck addPos (fun s e h => addPos_stuck h e) p ?_) hs
  rw [hq, List.foldl_append, List.foldl_cons]
  apply foldl_stuck addKw (fun s e h => addKw_stuck h e)
  have h0 : m ∉ (State.mk (name :: n :: rest) pos kw).keys := by
    intro h
    rcases List.mem_cons.mp h with h | h
    · exact hm h
    · exact hmd (hd ▸ h)
  obtain ⟨a, b, c⟩ := addKw_before q1 hq1 h0 (by simp)
  generalize q1.foldl addKw ⟨name :: n :: rest, pos, kw⟩ = s1 at a b c
  have hc : (isHist (Arg.hist t' p' q') && !s1.keys.contains m) = true := by simp [isHist, a]
  unfold addKw
  rw [if_pos hc]
  refine ⟨?_, ?_, get_put_same _ _ _⟩
  · cases hk : s1.keys with
    | nil => exact absurd hk b
    | cons x l => simp
  · show ∀ t p q, get s1.pos m ≠ _
    rw [c]
    exact hnot

/-- **C185**, what happens otherwise: a history among the keyword arguments of the first history, of a name that the object does not have as a history
itself, always ends without a label, also if the same name is among the positional arguments of that history. -/
theorem C185_keyword_none {name n m : String} (tag : Nat) {t t' : Nat} {pos kw p q q1 q2 p' q' : Dict} {rest : List String} (hd : direct pos = n :: rest)
    (hn : get pos n = some (.hist t p q)) (hq : q = q1 ++ (m, .hist t' p' q') :: q2) (hq1 : m ∉ q1.map (·.1)) (hm : m ≠ name) (hmd : m ∉ direct pos) : write name tag pos kw = none := by
  unfold write
  cases hs : collect name pos kw with
  | none => rfl
  | some s =>
    have h := collect_stuck hd hn hq hq1 hm hmd hs
    simp only [others_stuck h.2.1 _ _ h.1]

example : write "TAU" 0 [("dlp_inst", .hist 1 [("cal_inst", .hist 2 [] [])] [("x", .text), ("cal_inst", .hist 2 [] [])])] [] = none :=
  C185_keyword_none (n := "dlp_inst") (m := "cal_inst") (t' := 2) (p' := []) (q' := []) (q1 := [("x", .text)]) (q2 := []) (rest := []) 0 rfl rfl rfl
    (by decide) (by decide) (by decide)

/-- **C186**: and when there is no label, that history has nevertheless become a keyword argument of the object. -/
theorem C186_keyword_object {name n m : String} {t t' : Nat} {pos kw p q q1 q2 p' q' : Dict} {rest : List String} (hd : direct pos = n :: rest)
    (hn : get pos n = some (.hist t p q)) (hq : q = q1 ++ (m, .hist t' p' q') :: q2) (hq1 : m ∉ q1.map (·.1)) (hm : m ≠ name) (hmd : m ∉ direct pos) {s : State} (hs : collect name pos kw = some s) : get s.kw m = some (.hist t' p' q') :=
  (collect_stuck hd hn hq hq1 hm hmd hs).2.2

example : ((collect "TAU" [("dlp_inst", .hist 1 [] [("cal_inst", .hist 2 [] [])])] []).map fun s => s.kw.map (·.1)) = some ["cal_inst"] := by decide +kernel

end Verif.HText
