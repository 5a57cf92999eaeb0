import Verif.Proofs.Checks
import Verif.Base.Exact

/-!
# C05: keyword validation
-/
namespace Verif
open Spec

/-- **C05**: on an error-free tau, `Check_Keywords` returns, changes nothing but
the error, leaves the error clear iff all keywords are legal, and otherwise
reports the first offender in the documented order. -/
theorem C05_keywords (L : Lib) (t : TauD) (h : t.err = none) :
    ∃ t', checkKeywords L t = .ok t' ∧ { t' with err := t.err } = t ∧
      (t'.err = none ↔ LegalKeywords L.twoPi t) ∧
      (∀ e, t'.err = some e → ∃ g, FirstOffence L.twoPi t g ∧ e.fn = g.reporter) := by
  rcases checkKeywords_cases L h with ⟨g, e⟩ | ⟨g, l, f, e⟩
  · exact ⟨t, e, rfl, by simp [h, g], by simp [h]⟩
  · refine ⟨_, e, rfl, ?_, ?_⟩
    · simp only [Tau.fail_err, reduceCtorEq, false_iff]
      intro hl
      exact f.1 (hl g)
    · intro e' he'
      simp at he'
      exact ⟨g, f, by rw [← he']⟩

/-- The first offender is unique, so the message determines it. -/
theorem C05_first_unique (p : ℚ) (t : TauD) (g h : Group) (hg : FirstOffence p t g)
    (hh : FirstOffence p t h) : g = h := by
  have key : ∀ (g h : Group) (pre post pre' post' : List Group),
      Group.order = pre ++ g :: post → Group.order = pre' ++ h :: post' →
      g ∉ pre' → h ∉ pre → g = h := by
    intro g h pre post pre' post' e1 e2 n1 n2
    have e := e1.symm.trans e2
    rw [List.append_eq_append_iff] at e
    rcases e with ⟨a, h1, h2⟩ | ⟨a, h1, h2⟩
    · cases a with
      | nil => simp at h2; exact h2.1
      | cons x xs => simp at h2; exact absurd (by rw [h1, h2.1]; simp) n1
    · cases a with
      | nil => simp at h2; exact h2.1.symm
      | cons x xs => simp at h2; exact absurd (by rw [h1, h2.1]; simp) n2
  obtain ⟨n1, pre, post, e1, l1⟩ := hg
  obtain ⟨n2, pre', post', e2, l2⟩ := hh
  exact key g h pre post pre' post' e1 e2 (fun hm => n1 (l2 g hm)) (fun hm => n2 (l1 h hm))

/-- **C05**, NaN: a NaN in any of the six parameters is rejected. -/
theorem C05_nan_rejected (L : Lib) (t t' : TauD) (h : t.err = none)
    (hn : t.sigma.isNaN ∨ t.res.isNaN ∨ t.ecc.isNaN ∨ t.peri.isNaN ∨ t.range0.isNaN ∨
      t.range1.isNaN) (e : checkKeywords L t = .ok t') : t'.err ≠ none := by
  obtain ⟨u, eu, -, hiff, -⟩ := C05_keywords L t h
  rw [eu] at e
  cases e
  rw [ne_eq, hiff]
  intro hl
  obtain ⟨q1, e1, -⟩ := hl .sigma
  obtain ⟨q2, e2, -⟩ := hl .resolution
  obtain ⟨q3, e3, -⟩ := hl .eccentricity
  obtain ⟨q4, e4, -⟩ := hl .periapse
  obtain ⟨a, b, e5, e6, -⟩ := hl .range
  simp [e1, e2, e3, e4, e5, e6] at hn

/-- Default parameters are legal. -/
example : LegalKeywords exactLib.twoPi (tauInit exactLib) := by
  intro g
  cases g
  · exact ⟨_, rfl, by norm_num⟩
  · exact ⟨_, rfl, by norm_num⟩
  · exact ⟨_, rfl, le_refl _⟩
  · exact ⟨0, rfl, by norm_num [exactLib], by norm_num [exactLib]⟩
  · exact ⟨0, 0, rfl, rfl, le_refl _, le_refl _⟩

/-- Two offences at once: resolution and range; the resolution is reported. -/
example : FirstOffence exactLib.twoPi
    { tauInit exactLib with res := .nan, range0 := .fin (-1) } .resolution := by
  refine ⟨?_, [.sigma], _, rfl, ?_⟩
  · rintro ⟨q, h, -⟩; cases h
  · intro h hh
    simp at hh
    subst hh
    exact ⟨_, rfl, by norm_num⟩

end Verif
