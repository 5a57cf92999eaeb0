import Verif.Model.Api
import Verif.Proofs.Guard

/-!
# C01: errors are sticky; C02: NULL is harmless
-/
namespace Verif

/-- **C01**: with the error flag set, every sequence of public calls returns
and leaves the object exactly as it was (arrays, scalars and first message). -/
theorem C01_errors_sticky (W : World) (cs : List Call) (t : TauD) (h : t.err ≠ none) :
    runCalls W cs t = .ok t := by
  induction cs with
  | nil => rfl
  | cons c cs ih => simp only [runCalls, call_run_err W c t h, Res.ok_bind, ih]

/-- **C01**, second half: the message that is read after a sequence of calls is
the message of the first call that failed. -/
theorem C01_first_message (W : World) (cs ds : List Call) (t t' u : TauD) (e : Err)
    (h1 : runCalls W cs t = .ok t') (he : t'.err = some e)
    (h2 : runCalls W (cs ++ ds) t = .ok u) : u.err = some e := by
  have hsplit : ∀ (cs : List Call) (t : TauD),
      runCalls W (cs ++ ds) t = runCalls W cs t >>= runCalls W ds := by
    intro cs
    induction cs with
    | nil => intro t; rfl
    | cons c cs ih =>
      intro t
      simp only [List.cons_append, runCalls, Res.bind_assoc]
      cases c.run W t with
      | ub w => rfl
      | ok a => simpa using ih a
  rw [hsplit, h1, Res.ok_bind, C01_errors_sticky W ds t' (by simp [he])] at h2
  cases h2
  exact he

/-- A tau object with an error, NULL arrays and absurd sizes. -/
example (L : Lib) : (({ tauInit L with start := 10 ^ 30, arrSize := 0 } : TauD).fail .setRange 36).err
    ≠ none := by simp

/-- A concrete sequence: a NULL range string, then a NULL window type, then a
reconstruction; the message is the one about the range. -/
example (W : World) (u : TauD)
    (h : runCalls W [.setRange none true, .setWindowType none true, .reconstruction] (tauInit W.L)
      = .ok u) : u.err = some ⟨.setRange, 36⟩ :=
  C01_first_message W [.setRange none true] [.setWindowType none true, .reconstruction]
    (tauInit W.L) ((tauInit W.L).fail .setRange 36) u ⟨.setRange, 36⟩ rfl rfl h

/-- **C02** (false as stated): `Diffraction_Correction_SimpleFFT` dereferences a
NULL tau. -/
theorem C02_null_false (W : World) : ¬ ∀ c : Call, c.runPtr W none = .ok none := by
  intro h
  have := h .dcSimpleFFT
  simp [Call.runPtr, dcSimpleFFTPtr] at this

/-- **C02** for all other functions. Missing: `Diffraction_Correction_SimpleFFT`,
for which the claim is false. -/
theorem C02_null_partial (W : World) (c : Call) (hc : c ≠ .dcSimpleFFT) :
    c.runPtr W none = .ok none := by
  cases c <;> first | rfl | exact absurd rfl hc

example : Call.reconstruction ≠ .dcSimpleFFT := nofun

end Verif
