import Verif.Spec.Rsr
import Mathlib.Tactic.Positivity
import Mathlib.Tactic.NormNum
import Mathlib.Tactic.FieldSimp
import Mathlib.Tactic.Linarith

/-!
# Lemmas about the RSR reader
-/
namespace Verif.Rsr
open Spec

/-! ### Unpacking -/

theorem be_append_singleton (l : List Byte) (b : Byte) : be (l ++ [b]) = 256 * be l + b.val := by
  simp [be, List.foldl_append]

theorem be_slice (f : List Byte) (o n : Nat) (h : o + n ≤ f.length) : be ((f.drop o).take n) = numAt f o n := by
  induction n with
  | zero => simp [be, numAt]
  | succ n ih =>
    have e : (f.drop o).take (n + 1) = (f.drop o).take n ++ [f.getD (o + n) 0] := by
      rw [List.take_succ, List.getElem?_drop, List.getElem?_eq_getElem (by omega)]
      simp [List.getD, List.getElem?_eq_getElem (show o + n < f.length by omega)]
    rw [e, be_append_singleton, ih (by omega), numAt]

theorem unpackAll_length (fs : List Fmt) (l : List Byte) : (unpackAll fs l).length = fs.length := by
  induction fs generalizing l with
  | nil => rfl
  | cons f fs ih => simp [unpackAll, ih]

theorem calcsize_cons (f : Fmt) (fs : List Fmt) : calcsize (f :: fs) = f.size + calcsize fs := by simp [calcsize]

theorem calcsize_append (fs gs : List Fmt) : calcsize (fs ++ gs) = calcsize fs + calcsize gs := by
  simp [calcsize]

theorem unpackAll_append (fs gs : List Fmt) (l : List Byte) :
    unpackAll (fs ++ gs) l = unpackAll fs l ++ unpackAll gs (l.drop (calcsize fs)) := by
  induction fs generalizing l with
  | nil => simp [unpackAll, calcsize]
  | cons f fs ih => simp [unpackAll, ih, calcsize_cons, List.drop_drop]

theorem unpackAll_get (fs : List Fmt) (l : List Byte) (i : Nat) :
    (unpackAll fs l)[i]? = (fs[i]?).map fun f => f.read ((l.drop (calcsize (fs.take i))).take f.size) := by
  induction fs generalizing l i with
  | nil => simp [unpackAll]
  | cons f fs ih =>
    cases i with
    | zero => simp [unpackAll, calcsize]
    | succ i => simp [unpackAll, ih, calcsize_cons, List.drop_drop]

/-- Only the first bytes matter. -/
theorem unpackAll_take (fs : List Fmt) (l : List Byte) (n : Nat) (h : calcsize fs ≤ n) :
    unpackAll fs (l.take n) = unpackAll fs l := by
  induction fs generalizing l n with
  | nil => rfl
  | cons f fs ih =>
    rw [calcsize_cons] at h
    simp only [unpackAll]
    rw [List.take_take, Nat.min_eq_left (by omega), List.drop_take, ih _ _ (by omega)]

theorem lookup_of_getLast {α β : Type} [BEq α] [LawfulBEq α] (l : List (α × β)) (hn : (l.map Prod.fst).Nodup) (i : Nat) (a : α) (b : β)
    (h : l[i]? = some (a, b)) : l.reverse.lookup a = some b := by
  induction l generalizing i with
  | nil => simp at h
  | cons x l ih =>
    rw [List.map_cons, List.nodup_cons] at hn
    rw [List.reverse_cons, List.lookup_append]
    cases i with
    | zero =>
      simp only [List.getElem?_cons_zero, Option.some.injEq] at h
      subst h
      have : l.reverse.lookup a = none := by
        rw [List.lookup_eq_none_iff]
        intro p hp
        rw [List.mem_reverse] at hp
        rw [bne_iff_ne]
        rintro rfl
        exact hn.1 (List.mem_map.2 ⟨p, hp, rfl⟩)
      simp [this]
    | succ i =>
      simp only [List.getElem?_cons_succ] at h
      rw [ih hn.2 i h]; rfl

theorem fieldNames_nodup : fieldNames.Nodup := by decide +kernel

/-- A field by its position. -/
theorem field_get (vs : List Val) (i : Nat) (name : String) (hn : fieldNames[i]? = some name) (v : Val)
    (hv : vs[i]? = some v) : field vs name = some v := by
  unfold field
  refine lookup_of_getLast _ ?_ i name v ?_
  · have sub : ∀ (l : List String) (m : List Val), ((l.zip m).map Prod.fst).Sublist l := by
      intro l
      induction l with
      | nil => intro m; simp
      | cons a l ih =>
        intro m
        cases m with
        | nil => simp
        | cons b m => simpa using ih m
    exact fieldNames_nodup.sublist (sub _ _)
  · rw [List.getElem?_zip_eq_some]
    exact ⟨hn, hv⟩

/-- A field of a block that starts with a header. -/
theorem field_read (gs : List Fmt) (l : List Byte) (i : Nat) (name : String) (hn : fieldNames[i]? = some name) (f : Fmt)
    (hf : hdrFmt[i]? = some f) :
    field (unpackAll (hdrFmt ++ gs) l) name = some (f.read ((l.drop (calcsize (hdrFmt.take i))).take f.size)) := by
  refine field_get _ i name hn _ ?_
  have hi : i < hdrFmt.length := by
    by_contra k
    rw [List.getElem?_eq_none (by omega)] at hf
    cases hf
  rw [unpackAll_get, List.getElem?_append_left hi, hf, List.take_append_of_le_length (by omega)]
  rfl

theorem calcsize_hdr : calcsize hdrFmt = 260 := by decide +kernel

theorem sfduFmtOf_eq (b : Bool) (n : Nat) :
    sfduFmtOf b n = hdrFmt ++ (List.replicate n (if b then [Fmt.H, Fmt.H] else [Fmt.h, Fmt.h])).flatten := by
  simp [sfduFmtOf, hdrFmt, List.append_assoc]

theorem calcsize_words (b : Bool) (n : Nat) :
    calcsize (List.replicate n (if b then [Fmt.H, Fmt.H] else [Fmt.h, Fmt.h])).flatten = 4 * n := by
  induction n with
  | zero => rfl
  | succ n ih =>
    rw [List.replicate_succ, List.flatten_cons, calcsize_append, ih]
    cases b <;> simp [calcsize, Fmt.size] <;> omega

theorem calcsize_sfdu (b : Bool) (n : Nat) : calcsize (sfduFmtOf b n) = 260 + 4 * n := by
  rw [sfduFmtOf_eq, calcsize_append, calcsize_hdr, calcsize_words]

/-! ### Fields at their offsets -/

/-- Integer field `i` of the header: position, size and sign as the specification says. -/
def intOk (e : String × Nat × Nat × Bool) : Bool :=
  let i := fieldNames.idxOf e.1
  fieldNames[i]? == some e.1 && calcsize (hdrFmt.take i) == e.2.1 && e.2.1 + e.2.2.1 ≤ 260 &&
    (match hdrFmt[i]? with
      | some .B => e.2.2.1 == 1 && !e.2.2.2
      | some .b => e.2.2.1 == 1 && e.2.2.2
      | some .H => e.2.2.1 == 2 && !e.2.2.2
      | some .h => e.2.2.1 == 2 && e.2.2.2
      | some .I => e.2.2.1 == 4 && !e.2.2.2
      | some .Q => e.2.2.1 == 8 && !e.2.2.2
      | _ => false)

theorem intLayout_ok : ∀ e ∈ intLayout, intOk e = true := by decide +kernel

/-- Float fields. -/
def dblOk (e : String × Nat) : Bool :=
  let i := fieldNames.idxOf e.1
  fieldNames[i]? == some e.1 && calcsize (hdrFmt.take i) == e.2 && e.2 + 8 ≤ 260 && hdrFmt[i]? == some .d

theorem dblLayout_ok : ∀ e ∈ dblLayout, dblOk e = true := by decide +kernel

/-- Character fields. -/
def chrOk (e : String × Nat) : Bool :=
  let i := fieldNames.idxOf e.1
  fieldNames[i]? == some e.1 && calcsize (hdrFmt.take i) == e.2 && e.2 + 1 ≤ 260 && hdrFmt[i]? == some .c

theorem chrLayout_ok : ∀ e ∈ chrLayout, chrOk e = true := by decide +kernel

theorem signed_at (f : List Byte) (o n : Nat) (hn : 0 < n) : signed n (numAt f o n) = signedAt f o n := by
  unfold signed signedAt
  obtain ⟨m, rfl⟩ : ∃ m, n = m + 1 := ⟨n - 1, by omega⟩
  have : 256 ^ (m + 1) / 2 * 2 = 256 ^ (m + 1) := by
    refine Nat.div_mul_cancel ⟨128 * 256 ^ m, by rw [Nat.pow_succ]; omega⟩
  by_cases k : numAt f o (m + 1) < 256 ^ (m + 1) / 2
  · rw [if_pos k, if_pos (by omega)]
  · rw [if_neg k, if_neg (by omega)]

/-- The integer fields. -/
theorem int_at (gs : List Fmt) (l : List Byte) (hl : 260 ≤ l.length) (name : String) (o n : Nat) (sg : Bool)
    (he : (name, o, n, sg) ∈ intLayout) :
    field (unpackAll (hdrFmt ++ gs) l) name = some (.int (if sg then signedAt l o n else numAt l o n)) := by
  have h := intLayout_ok _ he
  simp only [intOk, Bool.and_eq_true, beq_iff_eq, decide_eq_true_eq] at h
  obtain ⟨⟨⟨h1, h2⟩, h3⟩, h4⟩ := h
  generalize hi : fieldNames.idxOf name = i at *
  cases hf : hdrFmt[i]? with
  | none => rw [hf] at h4; cases h4
  | some f =>
    rw [hf] at h4
    rw [field_read gs l i name h1 f hf, h2]
    have hs : f.size = n := by
      cases f <;> simp_all [Fmt.size]
    rw [hs]
    have hb := be_slice l o n (by omega)
    cases f <;> simp only [Bool.and_eq_true, beq_iff_eq, Bool.not_eq_true'] at h4
    case c => cases h4
    case d => cases h4
    all_goals
      obtain ⟨rfl, rfl⟩ := h4
      simp only [Fmt.read, hb, Bool.false_eq_true, if_false, if_true, signed_at _ _ _ (show 0 < 1 by decide),
        signed_at _ _ _ (show 0 < 2 by decide)]

/-- The float fields. -/
theorem dbl_at (gs : List Fmt) (l : List Byte) (hl : 260 ≤ l.length) (name : String) (o : Nat)
    (he : (name, o) ∈ dblLayout) :
    field (unpackAll (hdrFmt ++ gs) l) name = some (.dbl (dblOfBits (numAt l o 8))) := by
  have h := dblLayout_ok _ he
  simp only [dblOk, Bool.and_eq_true, beq_iff_eq, decide_eq_true_eq] at h
  obtain ⟨⟨⟨h1, h2⟩, h3⟩, h4⟩ := h
  rw [field_read gs l _ name h1 _ h4, h2]
  simp only [Fmt.read, Fmt.size, be_slice l o 8 (by omega)]

/-- The character fields. -/
theorem chr_at (gs : List Fmt) (l : List Byte) (hl : 260 ≤ l.length) (name : String) (o : Nat)
    (he : (name, o) ∈ chrLayout) :
    field (unpackAll (hdrFmt ++ gs) l) name = some (.bytes [l.getD o 0]) := by
  have h := chrLayout_ok _ he
  simp only [chrOk, Bool.and_eq_true, beq_iff_eq, decide_eq_true_eq] at h
  obtain ⟨⟨⟨h1, h2⟩, h3⟩, h4⟩ := h
  rw [field_read gs l _ name h1 _ h4, h2]
  have : (l.drop o).take 1 = [l.getD o 0] := by
    rw [List.take_one, List.head?_drop, List.getElem?_eq_getElem (by omega)]
    simp [List.getD, List.getElem?_eq_getElem (show o < l.length by omega)]
  simp only [Fmt.read, Fmt.size, this]

end Verif.Rsr
