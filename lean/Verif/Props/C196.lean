import Verif.Model.E2e
import Verif.Props.C194

/-!
# C196, C197: which profiles the batch programs reconstruct
-/

namespace Verif.E2e
open Verif.PyImp (St load table depth chain Val afterImport afterImport_elim)

/-! ## Specification -/

namespace Spec

/-- The halves of the occultation for which there is a profile, in order. -/
def present (ing egr : Bool) : List Dir :=
  (if ing then [.ing] else []) ++ (if egr then [.egr] else [])

/-- Everything is done for every profile: the reconstruction, and its files and summary if
files are wanted. -/
def Complete (r : Done × Bool) (wf ing egr : Bool) : Prop :=
  r.2 = true ∧ r.1.recon = present ing egr ∧
  r.1.written = (if wf then present ing egr else []) ∧
  r.1.docs = (if wf then present ing egr else [])

end Spec

instance (r : Done × Bool) (wf ing egr : Bool) : Decidable (Spec.Complete r wf ing egr) :=
  inferInstanceAs (Decidable (_ ∧ _ ∧ _ ∧ _))

/-! ## The attributes that decide -/

theorem newest_runs : afterImport 0 (fun s =>
    [true, false].all fun wf => [true, false].all fun ing => [true, false].all fun egr =>
      decide (Spec.Complete (run s e2eNewest wf ing egr) wf ing egr)) = true := by
  decide +kernel

theorem all_bool {f : Bool → Bool} (h : [true, false].all f = true) (b : Bool) :
    f b = true := by
  rw [List.all_eq_true] at h
  cases b
  · exact h false (by simp)
  · exact h true (by simp)

/-- The newest batch program does everything for each profile of a recording, in order,
whether there are one, two or none and whether files are wanted. -/
theorem C196_newest (av : String → Bool) (s : St) (hs : load table av depth 0 {} = .ok s)
    (wf ing egr : Bool) : Spec.Complete (run s e2eNewest wf ing egr) wf ing egr := by
  have h := afterImport_elim newest_runs hs
  have h := all_bool (all_bool (all_bool h wf) ing) egr
  simpa using h

example : Spec.present true true = [.ing, .egr] := rfl

/-! ## C197 -/

namespace Spec

/-- The other programs. -/
def older : List Prog := [e2eBatch, e2eScattered, e2ePostUSO, e2e500, e2e1km, e2eRun]

end Spec

theorem e2e1km_runs : afterImport 0 (fun s =>
    [true, false].all fun ing => [true, false].all fun egr =>
      decide (Spec.Complete (run s e2e1km false ing egr) false ing egr)) = true := by
  decide +kernel

/-- Of the other programs `e2e_batch_1km.py` does everything for each profile if no files
are wanted.
Full statement: each of them does everything for each profile,
`∀ p ∈ Spec.older, ∀ wf ing egr, Spec.Complete (run s p wf ing egr) wf ing egr`. -/
theorem C197_older_partial (av : String → Bool) (s : St)
    (hs : load table av depth 0 {} = .ok s) (ing egr : Bool) :
    Spec.Complete (run s e2e1km false ing egr) false ing egr := by
  have h := afterImport_elim e2e1km_runs hs
  simpa using all_bool (all_bool h ing) egr

/-- What the others leave of a recording: nothing for four of them, the reconstruction of
the first profile for the remaining two; in no case a summary; and always a failure. -/
def left (p : Prog) (ing : Bool) : List Dir :=
  if p.file = "pipeline/e2e_batch_500m.py" ∨ p.file = "pipeline/e2e_batch_1km.py" then
    [if ing then .ing else .egr]
  else []

theorem older_runs : afterImport 0 (fun s => Spec.older.all fun p =>
    [true, false].all fun ing => [true, false].all fun egr => !(ing || egr) ||
      (let r := run s p true ing egr
       !r.2 && decide (r.1.recon = left p ing) && decide (r.1.docs = []))) = true := by
  decide +kernel

/-- Each of the other programs fails with every recording that has a profile, when files are
wanted: with `plot_summary_doc_v2`, `diffrec`, `args` and `write_file` they use what does
not exist.  At most the first profile is reconstructed; egress is lost whenever there is
ingress. -/
theorem C197_older_false (av : String → Bool) (s : St)
    (hs : load table av depth 0 {} = .ok s) (p : Prog) (hp : p ∈ Spec.older)
    (ing egr : Bool) (h1 : (ing || egr) = true) :
    (run s p true ing egr).2 = false ∧ (run s p true ing egr).1.docs = [] ∧
    (run s p true ing egr).1.recon = left p ing ∧
    ((ing && egr) = true → Dir.egr ∉ (run s p true ing egr).1.recon) := by
  have h := afterImport_elim older_runs hs
  rw [List.all_eq_true] at h
  have h := all_bool (all_bool (h p hp) ing) egr
  simp only [h1, Bool.not_true, Bool.false_or, Bool.and_eq_true, Bool.not_eq_true',
    decide_eq_true_eq] at h
  obtain ⟨⟨ha, hb⟩, hc⟩ := h
  refine ⟨ha, hc, hb, ?_⟩
  intro h2
  have hi : ing = true := by cases ing <;> simp_all
  rw [hb, hi]
  unfold left
  split <;> simp

example : e2eRun ∈ Spec.older := by simp [Spec.older]

end Verif.E2e
