import Verif.Proofs.Names
import Verif.Base.Exact
import Verif.Model.Create

/-!
# C18: reconstruction methods
-/
namespace Verif
open Spec

/-- Assumed of `tmpl_String_To_UChar`: it reads the decimal numbers 0..255. -/
def ReadsDecimal (toUChar : List Char → Fin 256) : Prop :=
  ∀ n : Nat, n < 256 → (toUChar (Nat.repr n).toList).val = n

/-- **C18**, acceptance of the fixed names: exactly the method of that name. -/
theorem C18_name_accept (u : List Char → Fin 256) (t : TauD) (h : t.err = none) (s : List Char)
    (p : String × Psi) (hp : p ∈ methodNames) (hm : Matches s p.1.toList) :
    setPsiType u (some s) true t = ({ t with psinum := p.2 }, [.alloc, .free]) := by
  rw [matches_iff] at hm
  simp only [methodNames, List.mem_cons, List.not_mem_nil, or_false] at hp
  rcases hp with rfl | rfl | rfl | rfl | rfl | rfl | rfl | rfl | rfl | rfl | rfl | rfl <;>
    simp [setPsiType, h, hm]

theorem fresnel_suffix (u : List Char → Fin 256) (t : TauD) (h : t.err = none)
    (s x : List Char) (hx : x ≠ []) (hm : Matches s ("fresnel".toList ++ x)) :
    (setPsiType u (some s) true t).2 = [.alloc, .free] ∧
    (setPsiType u (some s) true t).1 =
      (let n := (u x).val
       if n = 0 then Tau.fail { t with order := n, psinum := .legendre } .setPsiType 143
       else if n = 1 then
         { Tau.fail { t with order := n, psinum := .legendre } .setPsiType 157 with order := 0 }
       else if n = 2 then { t with psinum := .fresnel, order := 0 }
       else { t with psinum := .legendre, order := n - 1 }) := by
  rw [matches_iff] at hm
  cases x with
  | nil => exact absurd rfl hx
  | cons a x => simp [setPsiType, h, hm]

/-- **C18**, the numbered methods: `fresnelN` with `3 ≤ N ≤ 255` is the Legendre
method of degree `N` (order `N - 1`), `fresnel2` is the quadratic method. -/
theorem C18_fresnelN_accept (u : List Char → Fin 256) (hu : ReadsDecimal u) (t : TauD)
    (h : t.err = none) (s : List Char) (n : Nat) (hn : 2 ≤ n) (hn' : n < 256)
    (hm : Matches s ("fresnel".toList ++ (Nat.repr n).toList)) :
    setPsiType u (some s) true t =
      (if n = 2 then { t with psinum := .fresnel, order := 0 }
       else { t with psinum := .legendre, order := n - 1 }, [.alloc, .free]) := by
  have hx : (Nat.repr n).toList ≠ [] := by
    intro h0
    have h1 := hu n hn'
    have h2 := hu 0 (by omega)
    have : ∀ m : Nat, (Nat.repr m).toList ≠ [] := by
      intro m hm0
      have := @Nat.toDigits_ne_nil m 10
      simp [Nat.repr] at hm0
    exact this n h0
  obtain ⟨e1, e2⟩ := fresnel_suffix u t h s _ hx hm
  have hval := hu n hn'
  refine Prod.ext ?_ e1
  rw [e2]
  simp only [hval]
  split_ifs <;> first | omega | rfl

/-- **C18**, soundness of acceptance: whenever no error is set, the string was
one of the documented ones and the stored method is the one it names; in
particular `None` is never stored without an error. -/
theorem C18_accept_sound (u : List Char → Fin 256) (t : TauD) (h : t.err = none) (s : List Char)
    (he : (setPsiType u (some s) true t).1.err = none) :
    (∃ p ∈ methodNames, Matches s p.1.toList ∧
      (setPsiType u (some s) true t).1 = { t with psinum := p.2 }) ∨
    (∃ x, Matches s ("fresnel".toList ++ x) ∧ (u x).val = 2 ∧
      (setPsiType u (some s) true t).1 = { t with psinum := .fresnel, order := 0 }) ∨
    (∃ x, Matches s ("fresnel".toList ++ x) ∧ 3 ≤ (u x).val ∧
      (setPsiType u (some s) true t).1 = { t with psinum := .legendre, order := (u x).val - 1 }) := by
  by_cases hp : ∃ p ∈ methodNames, Matches s p.1.toList
  · obtain ⟨p, hp, hm⟩ := hp
    exact .inl ⟨p, hp, hm, by rw [C18_name_accept u t h s p hp hm]⟩
  · right
    have hn : ∀ p ∈ methodNames, ¬ Matches s p.1.toList := fun p h1 h2 => hp ⟨p, h1, h2⟩
    have hn' := hn
    simp only [methodNames, List.forall_mem_cons, matches_iff, List.not_mem_nil, false_imp_iff,
      implies_true, and_true] at hn'
    obtain ⟨h1, h2, h3, h4, h5, h6, h7, h8, h9, h10, h11, h12⟩ := hn'
    by_cases hf : (canon s).take 7 = "fresnel".toList
    · have hm : Matches s ("fresnel".toList ++ (canon s).drop 7) := by
        rw [matches_iff, ← hf, List.take_append_drop]
      have hx : (canon s).drop 7 ≠ [] := by
        intro h0
        rw [h0, List.append_nil, matches_iff] at hm
        exact h12 hm
      obtain ⟨-, e⟩ := fresnel_suffix u t h s _ hx hm
      rw [e] at he ⊢
      simp only at he ⊢
      split_ifs at he ⊢ with a1 a2 a3
      · simp at he
      · simp at he
      · exact .inl ⟨_, hm, a3, rfl⟩
      · exact .inr ⟨_, hm, by omega, rfl⟩
    · simp only [setPsiType, h, Option.isSome_none, Bool.false_eq_true, if_false,
        Bool.not_true, h1, h2, h3, h4, h5, h6, h7, h8, h9, h10, h11, h12, hf] at he
      exact absurd he nofun

/-- **C18**, rejection of all strings that do not start with "fresnel": an error,
`psinum = None`, nothing else but `order` changes.  Missing for the claim as
stated: rejected strings that do start with "fresnel" (see
`C18_reject_none_false`); these set an error but keep `psinum = Legendre`. -/
theorem C18_reject_partial (u : List Char → Fin 256) (t : TauD) (h : t.err = none) (s : List Char)
    (hm : ∀ p ∈ methodNames, ¬ Matches s p.1.toList)
    (hf : ∀ x, ¬ Matches s ("fresnel".toList ++ x)) :
    ∃ r, setPsiType u (some s) true t = (r, [.alloc, .free]) ∧ r.err ≠ none ∧ r.psinum = .none ∧
      { r with err := t.err, psinum := t.psinum, order := t.order } = t := by
  simp only [methodNames, List.forall_mem_cons, matches_iff, List.not_mem_nil, false_imp_iff,
    implies_true, and_true] at hm
  obtain ⟨h1, h2, h3, h4, h5, h6, h7, h8, h9, h10, h11, h12⟩ := hm
  have hf' : ¬ (canon s).take 7 = "fresnel".toList := by
    intro hc
    exact hf ((canon s).drop 7) (by rw [matches_iff, ← hc, List.take_append_drop])
  refine ⟨_, by simp only [setPsiType, h, Option.isSome_none, Bool.false_eq_true, if_false,
    Bool.not_true, h1, h2, h3, h4, h5, h6, h7, h8, h9, h10, h11, h12, hf']; rfl, by simp, rfl, ?_⟩
  simp only [Tau.fail]

/-- **C18**, "every other string sets psinum to None" is false: `fresnel1` sets an
error but stores the Legendre method. -/
theorem C18_reject_none_false (u : List Char → Fin 256) (hu : ReadsDecimal u) :
    ¬ ∀ (t : TauD) (s : List Char), t.err = none →
      (setPsiType u (some s) true t).1.err ≠ none →
      (setPsiType u (some s) true t).1.psinum = .none := by
  intro hall
  have hm : Matches "fresnel1".toList ("fresnel".toList ++ "1".toList) := by
    rw [matches_iff]; decide
  have h1 : (u "1".toList).val = 1 := hu 1 (by decide)
  obtain ⟨-, e⟩ := fresnel_suffix u (tauInit exactLib) rfl _ _ (by decide) hm
  have e' : (setPsiType u (some "fresnel1".toList) true (tauInit exactLib)).1.err ≠ none ∧
      (setPsiType u (some "fresnel1".toList) true (tauInit exactLib)).1.psinum = .legendre := by
    rw [e]
    simp only [h1, Nat.one_ne_zero, if_false, if_true]
    exact ⟨nofun, rfl⟩
  have := hall (tauInit exactLib) "fresnel1".toList rfl e'.1
  rw [e'.2] at this
  cases this

/-- **C18**, NULL or failed duplication: an error, nothing else. -/
theorem C18_null (u : List Char → Fin 256) (t : TauD) (h : t.err = none) (s : Option (List Char))
    (dup : Bool) (hs : s = none ∨ dup = false) :
    ∃ l, setPsiType u s dup t = (t.fail .setPsiType l, []) := by
  cases s with
  | none => exact ⟨40, by simp [setPsiType, h]⟩
  | some s =>
    rcases hs with h' | h'
    · cases h'
    · exact ⟨57, by simp [setPsiType, h, h']⟩

example : Matches "Newton Filon12".toList "newtonfilon12".toList := by rw [matches_iff]; decide
example : Matches "Fresnel 6".toList ("fresnel".toList ++ (Nat.repr 6).toList) := by
  rw [matches_iff]; decide
example : (∀ p ∈ methodNames, ¬ Matches "newton".toList p.1.toList) ∧
    ∀ x, ¬ Matches "newton".toList ("fresnel".toList ++ x) := by
  refine ⟨by simp only [matches_iff]; decide, fun x => ?_⟩
  rw [matches_iff]
  intro h
  have := congrArg (List.take 1) h
  simp [canon, makeLower, removeWhitespace, isSpaceC, lowerC] at this
/-- A function that reads decimal numbers. -/
example : ReadsDecimal fun s =>
    Fin.ofNat 256 (s.foldl (fun a c => 10 * a + (c.toNat - 48)) 0) := by
  unfold ReadsDecimal; decide +kernel

end Verif
