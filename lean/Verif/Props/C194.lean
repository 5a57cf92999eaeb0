import Verif.Model.PyImport

/-!
# C194, C195: what the import of the package needs and what it gives
-/

namespace Verif.PyImp
open Verif

/-! ## What is outside the package decides only through what is asked for -/

/-- The outcome of a run that asks for `new` when the run with everything there gives
`s`. -/
def cut (av : String → Bool) (new : List String) (s : St) : Except Err St :=
  match new.find? (fun e => !av e) with
  | none => .ok s
  | some e => .error (.outside e)

/-- `B` behaves as `A` does, up to the first thing that is not there. -/
def Follows (av : String → Bool) (A B : St → Except Err St) : Prop :=
  ∀ s s', A s = .ok s' → ∃ new, s'.seen = s.seen ++ new ∧ B s = cut av new s'

theorem follows_pure (av : String → Bool) (f : St → St) (h : ∀ s, (f s).seen = s.seen) :
    Follows av (fun s => .ok (f s)) (fun s => .ok (f s)) := by
  intro s s' e
  cases e
  exact ⟨[], by simp [h], rfl⟩

theorem follows_bind (av : String → Bool) {A B A' B' : St → Except Err St}
    (h : Follows av A B) (h' : Follows av A' B') :
    Follows av (fun s => (A s).bind A') (fun s => (B s).bind B') := by
  intro s s'' e
  cases hA : A s with
  | error x => simp [hA, Except.bind] at e
  | ok s' =>
    simp only [hA, Except.bind] at e
    obtain ⟨n, hn, hb⟩ := h s s' hA
    obtain ⟨n', hn', hb'⟩ := h' s' s'' e
    refine ⟨n ++ n', by rw [hn', hn, List.append_assoc], ?_⟩
    simp only [hb, cut, List.find?_append]
    cases n.find? (fun e => !av e) with
    | none => simpa [Except.bind, cut] using hb'
    | some x => simp [Except.bind]

theorem follows_map (av : String → Bool) {A B : St → Except Err St} (f : St → St)
    (h : Follows av A B) (hf : ∀ s, (f s).seen = s.seen) :
    Follows av (fun s => (A s).map f) (fun s => (B s).map f) := by
  have := follows_bind av h (follows_pure av f hf)
  have e : ∀ X : Except Err St, X.map f = X.bind fun s => .ok (f s) := by
    intro X; cases X <;> rfl
  simpa only [e] using this

theorem bind_seen (s : St) (m : Nat) (x : String) (v : Val) :
    (s.bind m x v).seen = s.seen := rfl

theorem star_seen (cur : Nat) (l : List (String × Val)) (s : St) :
    (l.foldr (fun p s => s.bind cur p.1 p.2) s).seen = s.seen := by
  induction l with
  | nil => rfl
  | cons p l ih => simpa [bind_seen] using ih

theorem follows_step (t : List Module) (av : String → Bool)
    (A B : Nat → St → Except Err St) (h : ∀ m, Follows av (A m) (B m)) (cur : Nat)
    (st : Stmt) :
    Follows av (step t (fun _ => true) A cur st) (step t av B cur st) := by
  cases st with
  | ext e =>
    intro s s' hs
    simp only [step, if_true] at hs
    cases hs
    refine ⟨[e], rfl, ?_⟩
    cases he : av e <;> simp [step, cut, he]
  | defn x => exact follows_pure av _ fun _ => rfl
  | imp m x => exact follows_map av _ (h m) fun _ => rfl
  | frm m x y =>
    refine follows_bind av (h m) ?_
    intro s s' hs
    cases hl : (s.names m).lookup x with
    | some v =>
      simp only [hl] at hs
      cases hs
      exact ⟨[], by simp [bind_seen], by simp [hl, cut]⟩
    | none =>
      cases hk : sub t m x with
      | none => simp [hl, hk] at hs
      | some k =>
        simp only [hl, hk] at hs
        obtain ⟨n, hn, hb⟩ := follows_map av (fun s => s.bind cur y (.mod k)) (h k)
          (fun _ => rfl) s s' hs
        exact ⟨n, hn, by simpa only [hl, hk] using hb⟩
  | star m =>
    refine follows_map av (fun s => (s.names m).foldr (fun p s => s.bind cur p.1 p.2) s)
      (h m) fun s => star_seen cur _ s
  | gone e => intro s s' hs; simp [step] at hs

theorem follows_steps (t : List Module) (av : String → Bool)
    (A B : Nat → St → Except Err St) (h : ∀ m, Follows av (A m) (B m)) (cur : Nat)
    (sts : List Stmt) :
    Follows av (steps t (fun _ => true) A cur sts) (steps t av B cur sts) := by
  induction sts with
  | nil => exact follows_pure av id fun _ => rfl
  | cons st sts ih => exact follows_bind av (follows_step t av A B h cur st) ih

theorem attach_seen (d : Module) (m : Nat) (s : St) : (attach d m s).seen = s.seen := by
  unfold attach
  split <;> rfl

theorem follows_runMod (t : List Module) (av : String → Bool)
    (A B : Nat → St → Except Err St) (h : ∀ m, Follows av (A m) (B m)) (m : Nat)
    (d : Module) : Follows av (runMod t (fun _ => true) A m d) (runMod t av B m d) := by
  intro s s' hs
  unfold runMod at hs ⊢
  cases hm : s.has m with
  | true =>
    simp only [hm, if_true] at hs ⊢
    cases hs
    exact ⟨[], by simp, rfl⟩
  | false =>
    simp only [hm, Bool.false_eq_true, if_false] at hs ⊢
    exact follows_map av (attach d m) (follows_steps t av A B h m d.body) (attach_seen d m)
      { s with mods := (m, []) :: s.mods } s' hs

theorem follows_above (av : String → Bool) (A B : Nat → St → Except Err St)
    (h : ∀ m, Follows av (A m) (B m)) (d : Module) : Follows av (above A d) (above B d) := by
  intro s s' hs
  unfold above at hs ⊢
  cases hp : d.parent with
  | none =>
    simp only [hp] at hs ⊢
    cases hs
    exact ⟨[], by simp, rfl⟩
  | some p =>
    simp only [hp] at hs ⊢
    exact h p s s' hs

theorem follows_load (t : List Module) (av : String → Bool) (fuel : Nat) :
    ∀ m, Follows av (load t (fun _ => true) fuel m) (load t av fuel m) := by
  induction fuel with
  | zero => intro m s s' hs; simp [load] at hs
  | succ fuel ih =>
    intro m s s' hs
    unfold load at hs ⊢
    cases hm : s.has m with
    | true =>
      simp only [hm, if_true] at hs ⊢
      cases hs
      exact ⟨[], by simp, rfl⟩
    | false =>
      simp only [hm, Bool.false_eq_true, if_false] at hs ⊢
      cases hd : t[m]? with
      | none => simp [hd] at hs
      | some d =>
        simp only [hd] at hs ⊢
        exact follows_bind av (follows_above av _ _ ih d) (follows_runMod t av _ _ ih m d)
          s s' hs

/-- What a fresh interpreter asks for outside the package while it imports `m`. -/
def asks (m : Nat) : Option (List String) :=
  match load table (fun _ => true) depth m {} with
  | .ok s => some s.seen
  | .error _ => none

theorem import_iff (av : String → Bool) (m : Nat) (l : List String) (h : asks m = some l) :
    (∃ s, load table av depth m {} = .ok s) ↔ ∀ e ∈ l, av e = true := by
  unfold asks at h
  cases hs : load table (fun _ => true) depth m {} with
  | error x => rw [hs] at h; cases h
  | ok s =>
    rw [hs] at h
    cases h
    obtain ⟨n, hn, hb⟩ := follows_load table av depth m {} s hs
    have hn' : s.seen = n := by simpa using hn
    rw [hn', hb]
    unfold cut
    cases hf : n.find? (fun e => !av e) with
    | none =>
      rw [List.find?_eq_none] at hf
      exact ⟨fun _ e he => by simpa using hf e he, fun _ => ⟨s, rfl⟩⟩
    | some x =>
      constructor
      · rintro ⟨_, h⟩; cases h
      · intro h
        have hx := List.find?_some hf
        have := h x (List.mem_of_find?_eq_some hf)
        simp [this] at hx

/-! ## Specification -/

namespace Spec

/-- The part of a dotted name before the first dot. -/
def top (e : String) : List Char := e.toList.takeWhile (· ≠ '.')

/-- What an installation has: the packages of `requirements.txt`, the extension module that
`setup.py` builds and the standard library of Python (those parts of it that matter here). -/
def installed : List String :=
  ["numpy", "scipy", "matplotlib", "spiceypy", "crssringoccs",
   "sys", "os", "time", "platform", "warnings", "subprocess", "shutil", "struct", "copy",
   "concurrent", "datetime", "fcntl", "glob", "math", "multiprocessing", "re", "traceback",
   "types"]

/-- Everything outside the package that its import must find. -/
def needed : List String :=
  ["crssringoccs", "numpy", "sys", "time", "platform", "os", "spiceypy", "warnings",
   "matplotlib", "matplotlib.pyplot", "matplotlib.backends.backend_pdf.PdfPages",
   "scipy.signal.savgol_filter", "subprocess", "shutil", "time.strftime",
   "scipy.io.readsav", "scipy.optimize.curve_fit", "scipy.special.wofz", "spiceypy.furnsh",
   "spiceypy.utc2et", "spiceypy.et2utc", "scipy.signal.decimate", "struct",
   "scipy.interpolate.interp1d", "scipy.interpolate.splrep", "scipy.interpolate.splev",
   "spiceypy.spiceypy", "scipy.signal.spectrogram", "scipy.integrate.simpson",
   "scipy.signal.argrelmax", "scipy.signal", "matplotlib.gridspec.GridSpec", "copy"]

/-- The modules that need more, and what. -/
def more : List (String × String) :=
  [("rss_ringoccs.tools.dtau_partsize", "PyMieScatt"),
   ("rss_ringoccs.tools.rss_ringoccs_local_tools", "rss_ringoccs_global_paths"),
   ("rss_ringoccs.tools.rss_ringoccs_local_tools", "wcmatch.glob"),
   ("rss_ringoccs.tools.satellite_tools", "rss_ringoccs_global_paths")]

end Spec

/-- The import of module `m` by a fresh interpreter succeeds. -/
def Imports (av : String → Bool) (m : Nat) : Prop := ∃ s, load table av depth m {} = .ok s

/-! ## C194 -/

theorem asks_package : (asks 0).map List.eraseDups = some Spec.needed := by decide +kernel

/-- `import rss_ringoccs` succeeds exactly if everything in the list is there: neither the
cycles between the modules nor a name that a module lacks stop it. -/
theorem C194_package (av : String → Bool) :
    Imports av 0 ↔ ∀ e ∈ Spec.needed, av e = true := by
  have h := asks_package
  cases ha : asks 0 with
  | none => rw [ha] at h; cases h
  | some l =>
    rw [ha] at h
    rw [← Option.some.inj h]
    have := import_iff av 0 l ha
    simpa [Imports, List.mem_eraseDups] using this

example : Imports (fun _ => true) 0 := (C194_package _).2 fun _ _ => rfl

example : ¬ Imports (fun e => e != "scipy.integrate.simpson") 0 := by
  rw [C194_package]
  intro h
  exact absurd (h "scipy.integrate.simpson" (by decide +kernel)) (by decide +kernel)

/-- Whether `e` comes from what an installation has. -/
def fromInstalled (e : String) : Bool :=
  Spec.installed.any fun x => x.toList == Spec.top e

/-- For every module but one: what it asks for is installed or in the list of more things,
and it asks for all that the list has for it. -/
def listed (d : Module) (m : Nat) : Bool :=
  d.name == "rss_ringoccs.tools.compare" ||
  match asks m with
  | none => false
  | some l =>
    (l.all fun e => fromInstalled e || Spec.more.contains (d.name, e)) &&
    Spec.more.all fun p => p.1 != d.name || l.contains p.2

theorem listed_all : table.zipIdx.all (fun p => listed p.1 p.2) = true := by decide +kernel

/-- With an installation, a fresh interpreter can import every module of the package except
`compare` exactly if the few further things that some modules need are there. -/
theorem C194_modules_partial (av : String → Bool)
    (hav : ∀ e, (∃ x ∈ Spec.installed, x.toList = Spec.top e) → av e = true)
    (m : Nat) (d : Module) (hm : table[m]? = some d)
    (hd : d.name ≠ "rss_ringoccs.tools.compare") :
    Imports av m ↔ ∀ p ∈ Spec.more, p.1 = d.name → av p.2 = true := by
  have hl : listed d m = true := by
    have := listed_all
    rw [List.all_eq_true] at this
    exact this (d, m) (List.mem_zipIdx_iff_getElem?.2 hm)
  unfold listed at hl
  have hd' : (d.name == "rss_ringoccs.tools.compare") = false := by simpa using hd
  rw [hd', Bool.false_or] at hl
  cases ha : asks m with
  | none => rw [ha] at hl; cases hl
  | some l =>
    rw [ha] at hl
    simp only [Bool.and_eq_true, List.all_eq_true, Bool.or_eq_true] at hl
    obtain ⟨h1, h2⟩ := hl
    unfold Imports
    rw [import_iff av m l ha]
    constructor
    · intro h p hp hpd
      refine h p.2 ?_
      rcases h2 p hp with h | h
      · simp [hpd] at h
      · simpa using h
    · intro h e he
      rcases h1 e he with h' | h'
      · apply hav
        simpa [fromInstalled] using h'
      · exact h (d.name, e) (by simpa using h') rfl

/-- The installation alone is enough for the package with all its subpackages. -/
example (av : String → Bool)
    (hav : ∀ e, (∃ x ∈ Spec.installed, x.toList = Spec.top e) → av e = true) :
    Imports av 16 := by
  obtain ⟨d, hd, hn⟩ : ∃ d, table[16]? = some d ∧ d.name = "rss_ringoccs.occgeo.occgeo_uranus" :=
    ⟨_, rfl, rfl⟩
  rw [C194_modules_partial av hav 16 d hd (by rw [hn]; decide +kernel), hn]
  have h : ∀ p ∈ Spec.more, p.1 ≠ "rss_ringoccs.occgeo.occgeo_uranus" := by decide +kernel
  exact fun p hp he => absurd he (h p hp)

/-! ### A run that succeeds does so with everything there too -/

/-- `A` does what `B` does whenever `B` succeeds. -/
def Covers (B A : St → Except Err St) : Prop := ∀ s s', B s = .ok s' → A s = .ok s'

theorem covers_bind {A B A' B' : St → Except Err St} (h : Covers B A) (h' : Covers B' A') :
    Covers (fun s => (B s).bind B') (fun s => (A s).bind A') := by
  intro s s'' e
  cases hB : B s with
  | error x => simp [hB, Except.bind] at e
  | ok s' =>
    simp only [hB, Except.bind] at e
    simp only [h s s' hB, Except.bind]
    exact h' s' s'' e

theorem covers_map {A B : St → Except Err St} (f : St → St) (h : Covers B A) :
    Covers (fun s => (B s).map f) (fun s => (A s).map f) := by
  intro s s'' e
  cases hB : B s with
  | error x => simp [hB, Except.map] at e
  | ok s' => simpa only [hB, h s s' hB] using e

theorem covers_step (t : List Module) (av : String → Bool)
    (A B : Nat → St → Except Err St) (h : ∀ m, Covers (B m) (A m)) (cur : Nat) (st : Stmt) :
    Covers (step t av B cur st) (step t (fun _ => true) A cur st) := by
  cases st with
  | ext e =>
    intro s s' hs
    cases he : av e with
    | false => simp [step, he] at hs
    | true => simpa [step, he] using hs
  | defn x => exact fun _ _ hs => hs
  | imp m x => exact covers_map _ (h m)
  | frm m x y =>
    refine covers_bind (h m) ?_
    intro s s' hs
    cases hl : (s.names m).lookup x with
    | some v => simpa only [hl] using hs
    | none =>
      cases hk : sub t m x with
      | none => simp [hl, hk] at hs
      | some k =>
        simp only [hl, hk] at hs ⊢
        exact covers_map (fun s => s.bind cur y (.mod k)) (h k) s s' hs
  | star m => exact covers_map (fun s => (s.names m).foldr (fun p s => s.bind cur p.1 p.2) s) (h m)
  | gone e => intro s s' hs; simp [step] at hs

theorem covers_steps (t : List Module) (av : String → Bool)
    (A B : Nat → St → Except Err St) (h : ∀ m, Covers (B m) (A m)) (cur : Nat)
    (sts : List Stmt) :
    Covers (steps t av B cur sts) (steps t (fun _ => true) A cur sts) := by
  induction sts with
  | nil => exact fun _ _ hs => hs
  | cons st sts ih => exact covers_bind (covers_step t av A B h cur st) ih

theorem covers_load (t : List Module) (av : String → Bool) (fuel : Nat) :
    ∀ m, Covers (load t av fuel m) (load t (fun _ => true) fuel m) := by
  induction fuel with
  | zero => intro m s s' hs; simp [load] at hs
  | succ fuel ih =>
    intro m s s' hs
    unfold load at hs ⊢
    cases hm : s.has m with
    | true => simpa only [hm, if_true] using hs
    | false =>
      simp only [hm, Bool.false_eq_true, if_false] at hs ⊢
      cases hd : t[m]? with
      | none => simp [hd] at hs
      | some d =>
        simp only [hd] at hs ⊢
        refine covers_bind (B := above (load t av fuel) d)
          (B' := runMod t av (load t av fuel) m d) ?_ ?_ s s' hs
        · intro s s' hs
          unfold above at hs ⊢
          cases hp : d.parent with
          | none => simpa only [hp] using hs
          | some p => simp only [hp] at hs ⊢; exact ih p s s' hs
        · intro s s' hs
          unfold runMod at hs ⊢
          cases hm : s.has m with
          | true => simpa only [hm, if_true] using hs
          | false =>
            simp only [hm, Bool.false_eq_true, if_false] at hs ⊢
            exact covers_map (attach d m) (covers_steps t av _ _ ih m d.body)
              { s with mods := (m, []) :: s.mods } s' hs

theorem asks_compare : asks 23 = none := by decide +kernel

/-- `rss_ringoccs.tools.compare` cannot be imported, whatever is installed. -/
theorem C194_modules_false (av : String → Bool) :
    (table[23]?.map Module.name) = some "rss_ringoccs.tools.compare" ∧ ¬ Imports av 23 := by
  refine ⟨by decide +kernel, ?_⟩
  rintro ⟨s, hs⟩
  have h := covers_load table av depth 23 {} s hs
  have ha := asks_compare
  unfold asks at ha
  rw [h] at ha
  cases ha

/-- `rss_ringoccs_local_tools`, `satellite_tools` and `dtau_partsize` need more than the
installation has. -/
theorem C194_more_false :
    ∃ av : String → Bool, (∀ e, (∃ x ∈ Spec.installed, x.toList = Spec.top e) → av e = true) ∧
      ¬ Imports av 26 ∧ ¬ Imports av 37 ∧ ¬ Imports av 38 := by
  refine ⟨fromInstalled, ?_, ?_⟩
  · intro e he
    simpa [fromInstalled] using he
  · have key : ∀ (m : Nat) (d : Module), table[m]? = some d →
        d.name ≠ "rss_ringoccs.tools.compare" →
        (∃ p ∈ Spec.more, p.1 = d.name ∧ fromInstalled p.2 = false) →
        ¬ Imports fromInstalled m := by
      rintro m d hm hn ⟨p, hp, hpd, hf⟩ hi
      have := (C194_modules_partial fromInstalled
        (fun e he => by simpa [fromInstalled] using he) m d hm hn).1 hi p hp hpd
      rw [hf] at this
      cases this
    refine ⟨?_, ?_, ?_⟩
    · obtain ⟨d, hd, hn⟩ : ∃ d, table[26]? = some d ∧
          d.name = "rss_ringoccs.tools.dtau_partsize" := ⟨_, rfl, rfl⟩
      exact key 26 d hd (by rw [hn]; decide +kernel) (by rw [hn]; decide +kernel)
    · obtain ⟨d, hd, hn⟩ : ∃ d, table[37]? = some d ∧
          d.name = "rss_ringoccs.tools.rss_ringoccs_local_tools" := ⟨_, rfl, rfl⟩
      exact key 37 d hd (by rw [hn]; decide +kernel) (by rw [hn]; decide +kernel)
    · obtain ⟨d, hd, hn⟩ : ∃ d, table[38]? = some d ∧
          d.name = "rss_ringoccs.tools.satellite_tools" := ⟨_, rfl, rfl⟩
      exact key 38 d hd (by rw [hn]; decide +kernel) (by rw [hn]; decide +kernel)

/-! ## C195 -/

namespace Spec

/-- The chains that the package does not have after `import rss_ringoccs`. -/
def absent : List (List String) :=
  [["diffrec", "DiffractionCorrection"], ["tools", "plot_summary_doc_v2"],
   ["tools", "ExtractCSVData"], ["region_dict"],
   ["occgeo", "occgeo_uranus", "Uranus_Geometry"]]

end Spec

/-- A test of what is held after the import of module `m` with everything there. -/
def afterImport (m : Nat) (f : St → Bool) : Bool :=
  match load table (fun _ => true) depth m {} with
  | .ok s => f s
  | .error _ => false

theorem afterImport_elim {m : Nat} {f : St → Bool} (h : afterImport m f = true)
    {av : String → Bool} {s : St} (hs : load table av depth m {} = .ok s) : f s = true := by
  unfold afterImport at h
  rw [covers_load table av depth m {} s hs] at h
  exact h

theorem reads_checked : afterImport 0 (fun s => reads.all fun r =>
    (chain s (.mod 0) r.parts).isSome == !Spec.absent.contains r.parts) = true := by
  decide +kernel

/-- After `import rss_ringoccs` every `rss.a.b` that a program of the repository reads is
there, apart from five. -/
theorem C195_reads_partial (av : String → Bool) (s : St)
    (hs : load table av depth 0 {} = .ok s) (r : Read) (hr : r ∈ reads)
    (hn : r.parts ∉ Spec.absent) : ∃ v, chain s (.mod 0) r.parts = some v := by
  have h := afterImport_elim reads_checked hs
  rw [List.all_eq_true] at h
  have h := h r hr
  have hc : Spec.absent.contains r.parts = false := by simpa using hn
  rw [hc] at h
  exact Option.isSome_iff_exists.1 (by simpa using h)

example : ∃ r ∈ reads, r.file = "pipeline/e2e_batch_1km_20260130.py" ∧
    r.parts = ["tools", "plot_summary_doc_v5"] ∧ r.parts ∉ Spec.absent := by decide +kernel

/-- Those five are read, and reading them raises an exception; one of them is there after
the module for Uranus has been imported as well. -/
theorem C195_reads_false (av : String → Bool) (s : St)
    (hs : load table av depth 0 {} = .ok s) :
    (∀ c ∈ Spec.absent, (∃ r ∈ reads, r.parts = c) ∧ chain s (.mod 0) c = none) ∧
    (∀ s', load table av depth 16 {} = .ok s' →
      chain s' (.mod 0) ["occgeo", "occgeo_uranus", "Uranus_Geometry"] = some .obj) := by
  constructor
  · intro c hc
    have hr : ∀ c ∈ Spec.absent, ∃ r ∈ reads, r.parts = c := by decide +kernel
    obtain ⟨r, hr, rfl⟩ := hr c hc
    refine ⟨⟨r, hr, rfl⟩, ?_⟩
    have h := afterImport_elim reads_checked hs
    rw [List.all_eq_true] at h
    have h := h r hr
    have hc' : Spec.absent.contains r.parts = true := by simpa using hc
    rw [hc'] at h
    simpa using h
  · intro s' hs'
    have h : afterImport 16 (fun s => decide (chain s (.mod 0)
        ["occgeo", "occgeo_uranus", "Uranus_Geometry"] = some .obj)) = true := by
      decide +kernel
    simpa using afterImport_elim h hs'

end Verif.PyImp
