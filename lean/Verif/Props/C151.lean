import Verif.Model.PyModule
import Mathlib.Data.List.Perm.Basic

/-!
# C151: importing the extension module keeps the reference counts balanced

rss_ringoccs/crssringoccs/crssringoccs.c.
-/
namespace Verif.PyMod
open Verif

namespace Spec

/-- Nothing exists yet of the module, and the classes have references. -/
def Before (s : St) : Prop := s.module = 0 ∧ s.owned = [] ∧ s.all = 0 ∧ s.ownsAll = false ∧ ∀ c, 1 ≤ s.cls c

/-- With the module each class has one reference more, and the module and its list have one; without it everything is as before. -/
def Balanced (s : St) (got : Bool) (s' : St) : Prop :=
  (∀ c, s'.cls c = s.cls c + got.toNat) ∧ s'.module = got.toNat ∧ s'.all = got.toNat

end Spec
open Spec

theorem decrefs_module {cs : List Cls} {s t : St} (h : decrefs cs s = .ok t) : t.module = s.module := by
  induction cs generalizing s with
  | nil => cases h; rfl
  | cons c cs ih =>
    obtain ⟨u, h1, h2⟩ := Res.bind_eq_ok.mp h
    rw [ih h2]
    unfold decref at h1
    split at h1
    · cases h1
    · cases h1; rfl

theorem drop_twice {s t : St} (h : s.module = 1) (h1 : dropModule s = .ok t) : dropModule t = .ub .useAfterFree := by
  simp only [dropModule, h, Nat.one_ne_zero, if_false, if_true] at h1
  have := decrefs_module h1
  simp only [dropModule, this, if_true]

/-- When nothing fails, the module has the four classes, once each, and the list. -/
theorem C151_success {K : Calls} (hr : ∀ c, K.ready c = true) (hc : K.create = true) (ha : ∀ c, K.add c = true) (hb : K.build = true)
    (hl : K.addAll = true) (hi : K.array = true) {s : St} (hs : Before s) :
    ∃ s', init K s = .ok (true, s') ∧ Balanced s true s' ∧ s'.owned.Perm [.diffrec, .extract, .uranus, .merged] ∧ s'.ownsAll = true := by
  obtain ⟨h1, h2, h3, h4, h5⟩ := hs
  simp only [init, hr, hc, addClass, ha, finish, hb, hl, hi, and_self, not_true, if_false, if_true, h2, incref]
  refine ⟨_, rfl, ⟨?_, rfl, rfl⟩, (by decide : [Cls.extract, .uranus, .diffrec, .merged].Perm [.diffrec, .extract, .uranus, .merged]), rfl⟩
  intro c
  cases c <;> simp

/-- Every call succeeds, and each class has 26 references at the beginning. -/
example : ∃ s', init ⟨fun _ => true, true, fun _ => true, true, true, true⟩ ⟨fun _ => 26, 0, [], 0, false⟩ = .ok (true, s') ∧ s'.cls .merged = 27 := by
  obtain ⟨s', h, ⟨h1, -⟩, -⟩ := C151_success (K := ⟨fun _ => true, true, fun _ => true, true, true, true⟩) (fun _ => rfl) rfl (fun _ => rfl) rfl rfl rfl
    (s := ⟨fun _ => 26, 0, [], 0, false⟩) ⟨rfl, rfl, rfl, rfl, fun _ => (by decide : 1 ≤ 26)⟩
  exact ⟨s', h, h1 .merged⟩

/-- The classes are listed under the names under which they are added. -/
theorem C151_names : allNames.Perm ([Cls.extract, .uranus, .diffrec, .merged].map addedName) := by decide

/-- A failure up to the first class leaves everything as it was.  (Full claim: every failure; see the following theorems.) -/
theorem C151_early_partial {K : Calls} {s : St} (hs : Before s) (h : (∃ c, K.ready c = false) ∨ K.create = false ∨ K.add .extract = false) :
    ∃ s', init K s = .ok (false, s') ∧ Balanced s false s' := by
  obtain ⟨h1, h2, h3, h4, h5⟩ := hs
  have keep : Balanced s false s := ⟨fun _ => rfl, h1, h3⟩
  by_cases hr : K.ready .diffrec ∧ K.ready .extract ∧ K.ready .uranus ∧ K.ready .merged
  · by_cases hc : K.create = true
    · have ha : K.add .extract = false := by
        rcases h with ⟨c, hc'⟩ | hc' | ha
        · obtain ⟨a, b, d, e⟩ := hr
          cases c <;> simp_all
        · rw [hc] at hc'; cases hc'
        · exact ha
      have hp : ¬ s.cls .extract + 1 ≤ 1 := by have := h5 .extract; omega
      simp only [init, hr, hc, addClass, ha, not_true, if_false, Bool.false_eq_true, and_self, decrefs, decref, incref, if_true, hp, bind, Res.bind,
        dropModule, h2, h3, h4, Nat.one_ne_zero]
      refine ⟨_, rfl, ?_, rfl, rfl⟩
      intro c
      cases c <;> simp
    · simp only [init, hr, hc, and_self, not_true, if_false, Bool.false_eq_true, not_false_eq_true, if_true]
      exact ⟨s, rfl, keep⟩
  · simp only [init, hr, not_false_eq_true, if_true]
    exact ⟨s, rfl, keep⟩

/-- The first class cannot be added. -/
example : ∃ s', init ⟨fun _ => true, true, fun c => decide (c ≠ .extract), true, true, true⟩ ⟨fun _ => 26, 0, [], 0, false⟩ = .ok (false, s') ∧
    s'.cls .extract = 26 := by
  obtain ⟨s', h, h1, -⟩ := C151_early_partial (K := ⟨fun _ => true, true, fun c => decide (c ≠ .extract), true, true, true⟩)
    (s := ⟨fun _ => 26, 0, [], 0, false⟩) ⟨rfl, rfl, rfl, rfl, fun _ => (by decide : 1 ≤ 26)⟩ (.inr (.inr rfl))
  exact ⟨s', h, h1 .extract⟩

/-- A failure for a later class: the first one loses a reference that it had before the import. -/
theorem C151_later_false {K : Calls} (hr : ∀ c, K.ready c = true) (hc : K.create = true) (ha : K.add .extract = true) (hu : ∃ c, K.add c = false)
    {s : St} (hs : Before s) (h2 : ∀ c, 2 ≤ s.cls c) :
    ∃ s', init K s = .ok (false, s') ∧ s'.cls .extract = s.cls .extract - 1 ∧ ¬ Balanced s false s' := by
  obtain ⟨e1, e2, e3, e4, e5⟩ := hs
  obtain ⟨n1, k1⟩ : ∃ n, s.cls .extract = n + 2 := ⟨s.cls .extract - 2, by have := h2 .extract; omega⟩
  obtain ⟨n2, k2⟩ : ∃ n, s.cls .uranus = n + 2 := ⟨s.cls .uranus - 2, by have := h2 .uranus; omega⟩
  obtain ⟨n3, k3⟩ : ∃ n, s.cls .diffrec = n + 2 := ⟨s.cls .diffrec - 2, by have := h2 .diffrec; omega⟩
  obtain ⟨n4, k4⟩ : ∃ n, s.cls .merged = n + 2 := ⟨s.cls .merged - 2, by have := h2 .merged; omega⟩
  have key : ∃ s', init K s = .ok (false, s') ∧ s'.cls .extract = s.cls .extract - 1 := by
    by_cases u : K.add .uranus = true
    · by_cases d : K.add .diffrec = true
      · have m : K.add .merged = false := by
          obtain ⟨c, hc⟩ := hu
          cases c <;> simp_all
        simp [init, hr, hc, addClass, ha, u, d, m, e2, e4, decrefs, decref, incref, bind, Res.bind, dropModule, k1, k2, k3, k4]
      · simp [init, hr, hc, addClass, ha, u, d, e2, e4, decrefs, decref, incref, bind, Res.bind, dropModule, k1, k2, k3]
    · simp [init, hr, hc, addClass, ha, u, e2, e4, decrefs, decref, incref, bind, Res.bind, dropModule, k1, k2]
  obtain ⟨s', h, h'⟩ := key
  refine ⟨s', h, h', ?_⟩
  rintro ⟨h3, -, -⟩
  have := h3 .extract
  have := h2 .extract
  simp only [Bool.toNat_false] at *
  omega

/-- The last class cannot be added. -/
example : ∃ s', init ⟨fun _ => true, true, fun c => decide (c ≠ .merged), true, true, true⟩ ⟨fun _ => 26, 0, [], 0, false⟩ = .ok (false, s') ∧
    s'.cls .extract = 25 := by
  obtain ⟨s', h, h1, -⟩ := C151_later_false (K := ⟨fun _ => true, true, fun c => decide (c ≠ .merged), true, true, true⟩) (fun _ => rfl) rfl rfl
    ⟨.merged, rfl⟩ (s := ⟨fun _ => 26, 0, [], 0, false⟩) ⟨rfl, rfl, rfl, rfl, fun _ => (by decide : 1 ≤ 26)⟩ (fun _ => (by decide : 2 ≤ 26))
  exact ⟨s', h, h1⟩

/-- With one reference to begin with, that releases a class that is not on the heap. -/
theorem C151_static_false {K : Calls} (hr : ∀ c, K.ready c = true) (hc : K.create = true) (ha : K.add .extract = true) (hu : K.add .uranus = false)
    {s : St} (hs : Before s) (h1 : s.cls .extract = 1) : init K s = .ub .doubleFree := by
  obtain ⟨e1, e2, e3, e4, e5⟩ := hs
  have p2 : ¬ s.cls .uranus + 1 ≤ 1 := by have := e5 .uranus; omega
  simp [init, hr, hc, addClass, ha, hu, e2, e3, e4, p2, decrefs, decref, incref, bind, Res.bind, dropModule, h1]

/-- When the list cannot be made, the module is released twice: a use after the release, whatever the counts are. -/
theorem C151_list_false {K : Calls} (hr : ∀ c, K.ready c = true) (hc : K.create = true) (ha : ∀ c, K.add c = true) (hb : K.build = false)
    (s : St) : ∀ r, init K s ≠ .ok r := by
  intro r h
  simp only [init, hr, hc, addClass, ha, finish, hb, and_self, not_true, if_false, if_true, Bool.false_eq_true] at h
  obtain ⟨t, h1, h⟩ := Res.bind_eq_ok.mp h
  obtain ⟨u, h2, h⟩ := Res.bind_eq_ok.mp h
  have := drop_twice (decrefs_module h1) h2
  rw [this] at h
  cases h

/-- When the list cannot be added, three classes lose a reference and the list stays for ever. -/
theorem C151_added_false {K : Calls} (hr : ∀ c, K.ready c = true) (hc : K.create = true) (ha : ∀ c, K.add c = true) (hb : K.build = true)
    (hl : K.addAll = false) {s : St} (hs : Before s) (h2 : ∀ c, 2 ≤ s.cls c) :
    ∃ s', init K s = .ok (false, s') ∧ s'.all = 1 ∧ s'.cls .merged = s.cls .merged ∧ ∀ c, c ≠ .merged → s'.cls c = s.cls c - 1 := by
  obtain ⟨e1, e2, e3, e4, e5⟩ := hs
  obtain ⟨n1, k1⟩ : ∃ n, s.cls .extract = n + 2 := ⟨s.cls .extract - 2, by have := h2 .extract; omega⟩
  obtain ⟨n2, k2⟩ : ∃ n, s.cls .uranus = n + 2 := ⟨s.cls .uranus - 2, by have := h2 .uranus; omega⟩
  obtain ⟨n3, k3⟩ : ∃ n, s.cls .diffrec = n + 2 := ⟨s.cls .diffrec - 2, by have := h2 .diffrec; omega⟩
  obtain ⟨n4, k4⟩ : ∃ n, s.cls .merged = n + 2 := ⟨s.cls .merged - 2, by have := h2 .merged; omega⟩
  simp [init, hr, hc, addClass, ha, finish, hb, hl, e2, e4, decrefs, decref, incref, bind, Res.bind, dropModule, k1, k2, k3, k4]
  intro c hc
  cases c <;> simp_all

/-- When numpy cannot be imported, there is no module for the caller, but it stays. -/
theorem C151_numpy_false {K : Calls} (hr : ∀ c, K.ready c = true) (hc : K.create = true) (ha : ∀ c, K.add c = true) (hb : K.build = true)
    (hl : K.addAll = true) (hi : K.array = false) {s : St} (hs : Before s) : ∃ s', init K s = .ok (false, s') ∧ s'.module = 1 ∧ ¬ Balanced s false s' := by
  obtain ⟨h1, h2, h3, h4, h5⟩ := hs
  simp only [init, hr, hc, addClass, ha, finish, hb, hl, hi, and_self, not_true, if_false, if_true, h2, incref]
  refine ⟨_, rfl, rfl, ?_⟩
  rintro ⟨-, h, -⟩
  simp at h

end Verif.PyMod
