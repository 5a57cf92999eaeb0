import Verif.Model.Parse
import Verif.Spec.Names

namespace Verif
open Spec

theorem blank_iff (c : Char) : Blank c ↔ isSpaceC c = true := by
  simp only [Blank, isSpaceC, List.mem_cons, List.not_mem_nil, or_false, Bool.or_eq_true,
    decide_eq_true_eq, or_assoc]
  have h11 : c = Char.ofNat 11 ↔ c.toNat = 11 := by
    constructor
    · rintro rfl; decide
    · intro h
      have : Char.ofNat c.toNat = c := Char.ofNat_toNat c
      rw [h] at this; exact this.symm
  have h12 : c = Char.ofNat 12 ↔ c.toNat = 12 := by
    constructor
    · rintro rfl; decide
    · intro h
      have : Char.ofNat c.toNat = c := Char.ofNat_toNat c
      rw [h] at this; exact this.symm
  rw [h11, h12]

theorem upper_iff (c : Char) : ('A' ≤ c ∧ c ≤ 'Z') ↔ (65 ≤ c.toNat ∧ c.toNat ≤ 90) := by
  rw [Char.le_def, Char.le_def, UInt32.le_iff_toNat_le, UInt32.le_iff_toNat_le]
  exact Iff.rfl

theorem lowerOf_iff (c d : Char) : LowerOf c d ↔ lowerC c = d := by
  unfold LowerOf lowerC
  rw [← and_assoc, upper_iff]
  split_ifs with h
  · simp only [h, and_self, not_true_eq_false, false_and, true_and, false_or]
    constructor
    · intro e
      rw [← e, Char.ofNat_toNat]
    · intro e
      rw [← e]
      have hv : Nat.isValidChar (c.toNat + 32) := .inl (by omega)
      rw [Char.ofNat, dif_pos hv]
      rfl
  · simp only [h, not_false_eq_true, true_and, false_and, or_false]
    exact eq_comm

theorem matches_iff (s n : List Char) : Matches s n ↔ canon s = n := by
  induction s generalizing n with
  | nil =>
    constructor
    · intro h; cases h; rfl
    · intro h; cases h; exact .nil
  | cons c s ih =>
    have e : canon (c :: s) = if isSpaceC c = true then canon s else lowerC c :: canon s := by
      unfold canon makeLower removeWhitespace
      by_cases hb : isSpaceC c = true <;> simp [hb]
    rw [e]
    split_ifs with hb
    · constructor
      · intro h
        cases h with
        | blank _ h => exact (ih n).1 h
        | char hn _ _ => exact absurd ((blank_iff c).2 hb) hn
      · intro h; exact .blank ((blank_iff c).2 hb) ((ih n).2 h)
    · constructor
      · intro h
        cases h with
        | blank h1 _ => exact absurd ((blank_iff c).1 h1) hb
        | char _ h1 h2 => rw [(lowerOf_iff _ _).1 h1, (ih _).1 h2]
      · intro h
        subst h
        exact .char (fun h => hb ((blank_iff c).1 h)) ((lowerOf_iff _ _).2 rfl) ((ih _).2 rfl)

end Verif
