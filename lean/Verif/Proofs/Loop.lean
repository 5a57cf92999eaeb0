import Verif.Base.Res
import Mathlib.Tactic.Linarith
import Mathlib.Data.List.Basic

/-! Induction principles for `forRange` and lemmas on array accesses. -/
namespace Verif

variable {σ α : Type}

/-- Total correctness of a counted loop. -/
theorem forRange_total (P : Nat → σ → Prop) (body : Nat → σ → Res σ) :
    ∀ (cnt lo : Nat) (s : σ), P lo s →
    (∀ i s, lo ≤ i → i < lo + cnt → P i s → ∃ s', body i s = .ok s' ∧ P (i + 1) s') →
    ∃ s', forRange lo cnt body s = .ok s' ∧ P (lo + cnt) s' := by
  intro cnt
  induction cnt with
  | zero => intro lo s h _; exact ⟨s, rfl, h⟩
  | succ c ih =>
    intro lo s h hs
    obtain ⟨s1, e1, p1⟩ := hs lo s (le_refl _) (by omega) h
    obtain ⟨s2, e2, p2⟩ := ih (lo + 1) s1 p1 (fun i s a b => hs i s (by omega) (by omega))
    refine ⟨s2, ?_, ?_⟩
    · rw [forRange, e1, Res.ok_bind, e2]
    · rw [show lo + (c + 1) = lo + 1 + c by omega]; exact p2

/-- Partial correctness of a counted loop. -/
theorem forRange_partial (P : Nat → σ → Prop) (body : Nat → σ → Res σ) :
    ∀ (cnt lo : Nat) (s s' : σ), P lo s →
    (∀ i s s', lo ≤ i → i < lo + cnt → P i s → body i s = .ok s' → P (i + 1) s') →
    forRange lo cnt body s = .ok s' → P (lo + cnt) s' := by
  intro cnt
  induction cnt with
  | zero => intro lo s s' h _ e; cases e; exact h
  | succ c ih =>
    intro lo s s' h hs e
    rw [forRange, Res.bind_eq_ok] at e
    obtain ⟨s1, e1, e2⟩ := e
    have := ih (lo + 1) s1 s' (hs lo s s1 (le_refl _) (by omega) h e1)
      (fun i s s' a b => hs i s s' (by omega) (by omega)) e2
    rw [show lo + (c + 1) = lo + 1 + c by omega]; exact this

theorem rd_ok_of_lt {l : List α} {i : Nat} (h : i < l.length) : ∃ a, rd l i = .ok a ∧ l[i]? = some a :=
  ⟨l[i], rd_lt h, by simp [h]⟩

theorem rdSlice_some : ∀ (len start : Nat) (l : List α), start + len ≤ l.length →
    rdSlice (some l) start len = .ok ((l.drop start).take len) := by
  intro len
  induction len with
  | zero => intro start l h; simp [rdSlice]
  | succ k ih =>
    intro start l h
    have hlt : start < l.length := by omega
    rw [rdSlice, rdP_some, rd_lt hlt, Res.ok_bind, ih (start + 1) l (by omega), Res.ok_bind]
    congr 1
    rw [List.drop_eq_getElem_cons hlt, List.take_succ_cons]

theorem rdSlice_length {p : Option (List α)} : ∀ {len start : Nat} {r : List α},
    rdSlice p start len = .ok r → r.length = len := by
  intro len
  induction len with
  | zero => intro start r h; cases h; rfl
  | succ k ih =>
    intro start r h
    rw [rdSlice, Res.bind_eq_ok] at h
    obtain ⟨x, -, h⟩ := h
    rw [Res.bind_eq_ok] at h
    obtain ⟨xs, hxs, h⟩ := h
    cases h
    simp [ih hxs]

end Verif
