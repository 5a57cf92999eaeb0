import Verif.Model.Uring
import Verif.Props.C137
import Verif.Props.C74
import Mathlib.Tactic.Positivity

/-!
# C138: times, frames, ranges and phases in the pipeline for the rings of Uranus
-/
namespace Verif.Uring
open Verif.Rsr Verif.Vgr
namespace Spec

/-- The names of the rings written out. -/
def fullName : String → String
  | "A" => "ALPHA"
  | "B" => "BETA"
  | "N" => "ETA"
  | "G" => "GAMMA"
  | "D" => "DELTA"
  | "L" => "LAMBDA"
  | "E" => "EPSILON"
  | s => s

/-- The two angles are the same up to full turns. -/
def SameAngle (a b : ℝ) : Prop := ∃ m : ℤ, a = b + 2 * Real.pi * m

end Spec

/-! ## Times -/

/-- The part of a growing list between two bounds is a contiguous piece of it. -/
theorem filter_piece (l : List ℚ) (hl : l.Pairwise (· < ·)) (lo hi : ℚ) :
    ∃ a b, l = a ++ l.filter (fun x => decide (lo ≤ x) && decide (x ≤ hi)) ++ b := by
  induction l with
  | nil => exact ⟨[], [], rfl⟩
  | cons x l ih =>
    obtain ⟨hx, hl⟩ := List.pairwise_cons.1 hl
    obtain ⟨a, b, e⟩ := ih hl
    by_cases h1 : lo ≤ x
    · by_cases h2 : x ≤ hi
      · -- nothing is left out before the next one that is kept
        have ha : a = [] ∨ l.filter (fun x => decide (lo ≤ x) && decide (x ≤ hi)) = [] := by
          rcases a with _ | ⟨y, a⟩
          · exact Or.inl rfl
          · refine Or.inr ?_
            rw [List.filter_eq_nil_iff]
            intro z hz
            simp only [Bool.and_eq_true, decide_eq_true_eq, not_and, not_le]
            intro _
            by_contra hz2
            rw [not_lt] at hz2
            have hy : y ∈ l := by
              rw [e]
              simp
            have hyf : y ∉ l.filter (fun x => decide (lo ≤ x) && decide (x ≤ hi)) := by
              intro hmem
              have hp := hl
              rw [e, List.append_assoc, List.cons_append] at hp
              have := (List.pairwise_cons.1 hp).1 y (by simp [hmem])
              exact lt_irrefl _ this
            have hylo : lo ≤ y := h1.trans (hx y hy).le
            have hyhi : hi < y := by
              by_contra hcon
              exact hyf (List.mem_filter.2 ⟨hy, by simp [hylo, not_lt.1 hcon]⟩)
            have hzy : y ≤ z := by
              rw [e, List.append_assoc, List.cons_append] at hz
              have hp := hl
              rw [e, List.append_assoc, List.cons_append] at hp
              rcases List.mem_cons.1 hz with rfl | hz
              · exact le_refl _
              · exact ((List.pairwise_cons.1 hp).1 z hz).le
            linarith
        rw [List.filter_cons_of_pos (by simp [h1, h2])]
        rcases ha with rfl | ha
        · exact ⟨[], b, by simpa using e⟩
        · exact ⟨[], l, by simp [ha]⟩
      · -- all later ones are above
        have : (x :: l).filter (fun x => decide (lo ≤ x) && decide (x ≤ hi)) = [] := by
          rw [List.filter_eq_nil_iff]
          intro z hz
          simp only [Bool.and_eq_true, decide_eq_true_eq, not_and, not_le]
          intro _
          rcases List.mem_cons.1 hz with rfl | hz
          · exact not_le.1 h2
          · exact (not_le.1 h2).trans (hx z hz)
        exact ⟨x :: l, [], by rw [this]; simp⟩
    · rw [List.filter_cons_of_neg (by simp [h1])]
      exact ⟨x :: a, b, by rw [List.cons_append, List.cons_append, ← e]⟩

/-- The times of the egress without tapes: one second more after the first tape. -/
theorem egress_time (n k : Nat) (h : k < 96000000) :
    (times false 24000 n).getD k 0 = 4502 + (k : ℚ) / 50000 + if 24000000 ≤ k then 1 else 0 := by
  rw [C137_egress _ _ _ (by omega)]
  simp only [show 1000 * 24000 = 24000000 by norm_num]
  have hq : k / 24000000 < 4 := by omega
  have hd := Nat.div_add_mod k 24000000
  have : (k : ℚ) = 24000000 * ((k / 24000000 : Nat) : ℚ) + ((k % 24000000 : Nat) : ℚ) := by exact_mod_cast hd.symm
  rw [this]
  by_cases h1 : 24000000 ≤ k
  · rw [if_pos h1]
    have h0 : 0 < k / 24000000 := by omega
    generalize k / 24000000 = q at *
    interval_cases q <;> simp only [Verif.Vgr.Spec.tapeStart] <;> push_cast <;> ring
  · rw [if_neg h1, show k / 24000000 = 0 by omega]
    simp only [Verif.Vgr.Spec.tapeStart]
    push_cast
    ring

/-- The times of the egress as a list of which only the length and the members are known. -/
structure Egress (T : List ℚ) : Prop where
  length : T.length = 96000000
  time : ∀ k < 96000000, T.getD k 0 = 4502 + (k : ℚ) / 50000 + if 24000000 ≤ k then 1 else 0

theorem egress_length (n : Nat) : (times false 24000 n).length = 96000000 := by
  rw [times_length]
  rfl

theorem egress (n : Nat) : Egress (times false 24000 n) := ⟨egress_length n, egress_time n⟩

theorem Egress.lt {T : List ℚ} (hT : Egress T) {i j : Nat} (hij : i < j) (hj : j < 96000000) : T.getD i 0 < T.getD j 0 := by
  rw [hT.time i (by omega), hT.time j hj]
  have : (i : ℚ) < j := by exact_mod_cast hij
  by_cases h1 : 24000000 ≤ i
  · rw [if_pos h1, if_pos (by omega)]
    linarith
  · rw [if_neg h1]
    split <;> linarith

theorem pairwise_getD (T : List ℚ) (h : ∀ i j, i < j → j < T.length → T.getD i 0 < T.getD j 0) : T.Pairwise (· < ·) := by
  rw [List.pairwise_iff_getElem]
  intro i j hi hj hij
  have := h i j hij hj
  rw [List.getD_eq_getElem?_getD, List.getD_eq_getElem?_getD, List.getElem?_eq_getElem hi, List.getElem?_eq_getElem hj] at this
  exact this

theorem Egress.growing {T : List ℚ} (hT : Egress T) : T.Pairwise (· < ·) :=
  pairwise_getD T fun _ _ hij hj => hT.lt hij (by rw [hT.length] at hj; exact hj)

/-- A window is a piece of the times. -/
theorem window_piece {T : List ℚ} (hT : Egress T) (c h : ℚ) : ∃ i, i + (window T c h).length ≤ 96000000 ∧
    ∀ j < (window T c h).length, (window T c h).getD j 0 = T.getD (i + j) 0 := by
  obtain ⟨a, b, e⟩ := filter_piece _ (hT.growing) (c - h) (c + h)
  unfold window
  generalize hw : T.filter (fun x => decide (c - h ≤ x) && decide (x ≤ c + h)) = w at *
  refine ⟨a.length, ?_, fun j hj => ?_⟩
  · have := congrArg List.length e
    rw [hT.length, List.length_append, List.length_append] at this
    omega
  · rw [e, List.append_assoc, List.getD_append_right _ _ _ _ (by omega), List.getD_append _ _ _ _ (by omega)]
    congr 1
    omega

/-- The error of the times. -/
theorem time_error {T : List ℚ} (hT : Egress T) (c h : ℚ) (alpha : Bool) (k : Nat) (hk : 10 * k < (window T c h).length) :
    newTime alpha (window T c h) k - (window T c h).getD (10 * k) 0 =
      (if alpha then 1 else 0) -
        if (window T c h).getD 0 0 < 4982 ∧ 4983 ≤ (window T c h).getD (10 * k) 0 then 1 else 0 := by
  obtain ⟨i, hi, hp⟩ := window_piece hT c h
  have e0 := hp 0 (by omega)
  have e1 := hp (10 * k) hk
  rw [Nat.add_zero] at e0
  rw [hT.time _ (by omega)] at e0
  rw [hT.time _ (by omega)] at e1
  have hc : ((window T c h).getD 0 0 < 4982 ↔ i < 24000000) ∧
      (4983 ≤ (window T c h).getD (10 * k) 0 ↔ 24000000 ≤ i + 10 * k) := by
    constructor
    · rw [e0]
      constructor
      · intro hlt
        by_contra hcon
        have : (24000000 : ℚ) ≤ i := by exact_mod_cast not_lt.1 hcon
        rw [if_pos (not_lt.1 hcon)] at hlt
        linarith
      · intro hlt
        have : (i : ℚ) < 24000000 := by exact_mod_cast hlt
        rw [if_neg (by omega)]
        linarith
    · rw [e1]
      constructor
      · intro hle
        by_contra hcon
        have : ((i + 10 * k : Nat) : ℚ) < 24000000 := by exact_mod_cast not_le.1 hcon
        rw [if_neg hcon] at hle
        linarith
      · intro hle
        have : (24000000 : ℚ) ≤ ((i + 10 * k : Nat) : ℚ) := by exact_mod_cast hle
        rw [if_pos hle]
        linarith
  simp only [hc.1, hc.2]
  unfold newTime
  rw [e0, e1]
  push_cast
  by_cases h1 : i < 24000000
  · by_cases h2 : 24000000 ≤ i + 10 * k
    · rw [if_pos h2, if_neg (show ¬ 24000000 ≤ i by omega), if_pos (show i < 24000000 ∧ 24000000 ≤ i + 10 * k from ⟨h1, h2⟩)]
      cases alpha <;> simp only [Bool.false_eq_true, if_false, if_true] <;> ring
    · rw [if_neg h2, if_neg (show ¬ 24000000 ≤ i by omega), if_neg (show ¬ (i < 24000000 ∧ 24000000 ≤ i + 10 * k) from fun hh => h2 hh.2)]
      cases alpha <;> simp only [Bool.false_eq_true, if_false, if_true] <;> ring
  · rw [if_pos (show 24000000 ≤ i + 10 * k by omega), if_pos (show 24000000 ≤ i by omega), if_neg (show ¬ (i < 24000000 ∧ 24000000 ≤ i + 10 * k) from fun hh => h1 hh.1)]
    cases alpha <;> simp only [Bool.false_eq_true, if_false, if_true] <;> ring

/-- **C138.** The time given to a decimated sample differs from the time of the sample by the second that is missing between the tapes, if
it lies between the start of the window and the sample; one second is added everywhere for the alpha ring. -/
theorem C138_time {T : List ℚ} (n : Nat) (hT : T = times false 24000 n) (c h : ℚ) (alpha : Bool) (k : Nat) (hk : 10 * k < (window T c h).length) :
    newTime alpha (window T c h) k - (window T c h).getD (10 * k) 0 =
      (if alpha then 1 else 0) - if (window T c h).getD 0 0 < 4982 ∧ 4983 ≤ (window T c h).getD (10 * k) 0 then 1 else 0 :=
  time_error (by rw [hT]; exact egress n) c h alpha k hk

/-- The times of a window lie within it. -/
theorem window_within (t : List ℚ) (c h : ℚ) (j : Nat) (hj : j < (window t c h).length) : c - h ≤ (window t c h).getD j 0 ∧ (window t c h).getD j 0 ≤ c + h := by
  have : (window t c h).getD j 0 ∈ window t c h := by
    rw [List.getD_eq_getElem?_getD, List.getElem?_eq_getElem hj]
    exact List.getElem_mem _
  have := (List.mem_filter.1 this).2
  simpa using this

/-- **C138.** In the calibration the times are right for every ring on egress but alpha. -/
theorem C138_calibration_partial {T : List ℚ} (n : Nat) (hT : T = times false 24000 n) (r : String × ℚ) (hr : r ∈ egressSpm) (ha : r.1 ≠ "A") (k : Nat)
    (hk : 10 * k < (window T r.2 100).length) :
    newTime false (window T r.2 100) k = (window T r.2 100).getD (10 * k) 0 := by
  have hT : Egress T := by rw [hT]; exact egress n
  have h := time_error hT r.2 100 false k hk
  have w0 := window_within T r.2 100 0 (by omega)
  have w1 := window_within T r.2 100 _ hk
  have side : r.2 + 100 < 4983 ∨ 4982 ≤ r.2 - 100 := by
    unfold egressSpm at hr
    simp only [List.mem_cons, List.not_mem_nil, or_false] at hr
    rcases hr with rfl | rfl | rfl | rfl | rfl | rfl | rfl | rfl | rfl
    · left; norm_num
    · left; norm_num
    · left; norm_num
    · exact absurd rfl ha
    · right; norm_num
    · right; norm_num
    · right; norm_num
    · right; norm_num
    · right; norm_num
  rw [if_neg (by simp), if_neg (by rintro ⟨h1, h2⟩; rcases side with s | s <;> linarith)] at h
  linarith

/-- The time of every raw sample within the bounds is in the window. -/
theorem mem_window {T : List ℚ} (hT : Egress T) (c h : ℚ) (i : Nat) (hi : i < 96000000) (h1 : c - h ≤ T.getD i 0) (h2 : T.getD i 0 ≤ c + h) :
    T.getD i 0 ∈ window T c h := by
  refine List.mem_filter.2 ⟨?_, by rw [decide_eq_true h1, decide_eq_true h2]; rfl⟩
  rw [List.getD_eq_getElem?_getD, List.getElem?_eq_getElem (by rw [hT.length]; exact hi)]
  exact List.getElem_mem _

/-- The first time of a window is the least. -/
theorem window_first {T : List ℚ} (hT : Egress T) (c h x : ℚ) (hx : x ∈ window T c h) : (window T c h).getD 0 0 ≤ x := by
  have hp : (window T c h).Pairwise (· < ·) := (hT.growing).sublist List.filter_sublist
  generalize window T c h = w at *
  rcases w with _ | ⟨y, w⟩
  · exact absurd hx List.not_mem_nil
  · rcases List.mem_cons.1 hx with rfl | hx
    · exact le_refl _
    · exact ((List.pairwise_cons.1 hp).1 x hx).le

/-- **C138 is false for the alpha ring:** the samples before the missing second get times that are one second late. -/
theorem C138_alpha_false {T : List ℚ} (n : Nat) (hT : T = times false 24000 n) : ("A", (5055.85999966 : ℚ)) ∈ egressSpm ∧ 0 < (window T 5055.85999966 100).length ∧
    newTime true (window T 5055.85999966 100) 0 = (window T 5055.85999966 100).getD 0 0 + 1 := by
  have hT : Egress T := by rw [hT]; exact egress n
  have m := mem_window hT 5055.85999966 100 22693000 (by norm_num) (by rw [hT.time _ (by norm_num)]; norm_num) (by rw [hT.time _ (by norm_num)]; norm_num)
  refine ⟨by decide +kernel, List.length_pos_of_mem m, ?_⟩
  unfold newTime
  rw [if_pos rfl]
  push_cast
  ring

/-- **C138 is false in the scattering script:** for a ring after the missing second whose window of 1000 seconds begins before it, the
sample at the ring gets a time that is one second early. -/
theorem C138_scatter {T : List ℚ} (n : Nat) (hT : T = times false 24000 n) (c h : ℚ) (h1 : 4983 ≤ c) (h2 : c ≤ 6400) (h4 : c - h ≤ 4981) :
    ∃ k, 10 * k < (window T c h).length ∧ c ≤ (window T c h).getD (10 * k) 0 ∧
      (window T c h).getD (10 * k) 0 ≤ c + 1 / 1000 ∧
      newTime false (window T c h) k = (window T c h).getD (10 * k) 0 - 1 := by
  have hT : Egress T := by rw [hT]; exact egress n
  obtain ⟨i, hi, hp⟩ := window_piece hT c h
  -- the first raw sample at or after the ring
  obtain ⟨m, hm1, hm2⟩ : ∃ m : Nat, (c - 4503) * 50000 ≤ m ∧ (m : ℚ) < (c - 4503) * 50000 + 1 := ⟨⌈(c - 4503) * 50000⌉₊, Nat.le_ceil _, Nat.ceil_lt_add_one (by linarith)⟩
  have hm3 : 24000000 ≤ m := by
    have : (24000000 : ℚ) ≤ m := by linarith
    exact_mod_cast this
  have hm4 : m + 10 < 96000000 := by
    have : (m : ℚ) + 10 < 96000000 := by linarith
    exact_mod_cast this
  have tm : ∀ r < 10, T.getD (m + r) 0 = 4503 + ((m : ℚ) + r) / 50000 := by
    intro r hr
    rw [hT.time _ (by omega), if_pos (by omega)]
    push_cast
    ring
  have bounds : ∀ r < 10, c ≤ T.getD (m + r) 0 ∧ T.getD (m + r) 0 ≤ c + 1 / 1000 := by
    intro r hr
    have hr' : (r : ℚ) < 10 := by exact_mod_cast hr
    have hr0 : (0 : ℚ) ≤ r := Nat.cast_nonneg r
    rw [tm r hr]
    constructor <;> linarith
  have mem : ∀ r < 10, T.getD (m + r) 0 ∈ window T c h := by
    intro r hr
    have := bounds r hr
    exact mem_window hT c h _ (by omega) (by linarith [this.1]) (by linarith [this.2])
  -- where they are in the window
  have growing : ∀ p q, p < 96000000 → q < 96000000 → T.getD p 0 = T.getD q 0 → p = q := by
    intro p q hp' hq' e
    have gl : ∀ m, (hm : m < T.length) → T.getD m 0 = T[m] := by
      intro m hm
      rw [List.getD_eq_getElem?_getD, List.getElem?_eq_getElem hm]
      rfl
    rw [gl p (by rw [hT.length]; exact hp'), gl q (by rw [hT.length]; exact hq')] at e
    have hg := List.pairwise_iff_getElem.1 (hT.growing)
    rcases Nat.lt_trichotomy p q with hlt | rfl | hlt
    · exact absurd e (ne_of_lt (hg p q _ _ hlt))
    · rfl
    · exact absurd e.symm (ne_of_lt (hg q p _ _ hlt))
  have pos : ∀ r < 10, i ≤ m + r ∧ m + r - i < (window T c h).length := by
    intro r hr
    obtain ⟨j, hj, ej⟩ := List.getElem_of_mem (mem r hr)
    have := hp j hj
    rw [List.getD_eq_getElem?_getD, List.getElem?_eq_getElem hj] at this
    simp only [Option.getD_some] at this
    have hij := growing _ _ (by omega) (by omega) (this.symm.trans ej)
    omega
  obtain ⟨r, hr, hr10⟩ : ∃ r < 10, (m + r - i) % 10 = 0 := by
    have := (pos 0 (by omega)).1
    exact ⟨(10 - (m - i) % 10) % 10, Nat.mod_lt _ (by omega), by omega⟩
  obtain ⟨p1, p2⟩ := pos r hr
  have ek : 10 * ((m + r - i) / 10) = m + r - i := by omega
  have hk : 10 * ((m + r - i) / 10) < (window T c h).length := by rw [ek]; exact p2
  have val : (window T c h).getD (10 * ((m + r - i) / 10)) 0 = T.getD (m + r) 0 := by
    rw [hp _ hk, ek]
    congr 1
    omega
  have b := bounds r hr
  refine ⟨(m + r - i) / 10, hk, by rw [val]; exact b.1, by rw [val]; exact b.2, ?_⟩
  have hfirst : (window T c h).getD 0 0 < 4982 := by
    have : (window T c h).getD 0 0 ≤ T.getD 23950000 0 := by
      apply window_first hT
      apply mem_window hT c h _ (by norm_num)
      · rw [hT.time _ (by norm_num), if_neg (by norm_num)]
        norm_num
        linarith
      · rw [hT.time _ (by norm_num), if_neg (by norm_num)]
        norm_num
        linarith
    rw [hT.time _ (by norm_num), if_neg (by norm_num)] at this
    rw [show (4502 : ℚ) + ((23950000 : Nat) : ℚ) / 50000 + 0 = 4981 by norm_num] at this
    linarith
  have t := time_error hT c h false _ hk
  rw [if_neg (by simp), if_pos ⟨hfirst, by rw [val]; linarith [b.1]⟩] at t
  linarith

/-- **C138 is false in the scattering script:** this happens to the rings beta, eta and gamma. -/
theorem C138_scatter_false {T : List ℚ} (n : Nat) (hT : T = times false 24000 n) (r : String × ℚ) (hr : r ∈ egressSpm) (h : r.1 = "B" ∨ r.1 = "N" ∨ r.1 = "G") :
    ∃ k, 10 * k < (window T r.2 500).length ∧ r.2 ≤ (window T r.2 500).getD (10 * k) 0 ∧
      (window T r.2 500).getD (10 * k) 0 ≤ r.2 + 1 / 1000 ∧
      newTime false (window T r.2 500) k = (window T r.2 500).getD (10 * k) 0 - 1 := by
  unfold egressSpm at hr
  simp only [List.mem_cons, List.not_mem_nil, or_false] at hr
  have key : 4983 ≤ r.2 ∧ r.2 ≤ 5480 := by
    rcases hr with rfl | rfl | rfl | rfl | rfl | rfl | rfl | rfl | rfl
    · exact absurd h (by decide)
    · exact absurd h (by decide)
    · exact absurd h (by decide)
    · exact absurd h (by decide)
    · constructor <;> norm_num
    · constructor <;> norm_num
    · constructor <;> norm_num
    · exact absurd h (by decide)
    · exact absurd h (by decide)
  exact C138_scatter n hT r.2 500 key.1 (by linarith [key.2]) (by linarith [key.2])

example : ("B", (5175.7670002 : ℚ)) ∈ egressSpm ∧ ("6", (4703.43400002 : ℚ)) ∈ egressSpm := by decide +kernel

/-- A window of the calibration of ring 6 is not empty. -/
example {T : List ℚ} (n : Nat) (hT : T = times false 24000 n) : 10 * 0 < (window T 4703.43400002 100).length :=
  have hT : Egress T := by rw [hT]; exact egress n
  List.length_pos_of_mem (mem_window hT 4703.43400002 100 10000000 (by norm_num) (by rw [hT.time _ (by norm_num)]; norm_num)
    (by rw [hT.time _ (by norm_num)]; norm_num))

/-! ## Frequency offsets -/

/-- **C138.** The offsets belong to the samples: for growing times they are the value of the polynomial of the part that each time is in. -/
theorem C138_offsets (p1 p2 : ℚ → ℚ) (b : ℚ) (t : List ℚ) (ht : t.Pairwise (· < ·)) :
    offsets p1 p2 b t = t.map fun x => if x < b then p1 x else p2 x := by
  unfold offsets
  induction t with
  | nil => rfl
  | cons x t ih =>
    obtain ⟨hx, ht⟩ := List.pairwise_cons.1 ht
    by_cases h : x < b
    · rw [List.filter_cons_of_pos (by simpa using h), List.filter_cons_of_neg (by simpa using h), List.map_cons, List.cons_append, ih ht, List.map_cons, if_pos h]
    · have : ∀ y ∈ x :: t, b ≤ y := by
        intro y hy
        rcases List.mem_cons.1 hy with rfl | hy
        · exact not_lt.1 h
        · exact (not_lt.1 h).trans (hx y hy).le
      have e1 : (x :: t).filter (fun y => decide (y < b)) = [] := by
        rw [List.filter_eq_nil_iff]
        intro y hy
        simpa using this y hy
      have e2 : (x :: t).filter (fun y => decide (b ≤ y)) = x :: t := by
        rw [List.filter_eq_self]
        intro y hy
        simpa using this y hy
      rw [e1, e2, List.map_nil, List.nil_append]
      apply List.map_congr_left
      intro y hy
      rw [if_neg (not_lt.2 (this y hy))]

example : offsets (fun x => x) (fun x => -x) 3 [1, 2, 3, 4] = [1, 2, -3, -4] := by decide +kernel

/-! ## Frames -/

/-- **C138 is false for the frames:** the epsilon ring is computed in the frame of the lambda ring. -/
theorem C138_frame_false : ("E", "URING_LAMBDA") ∈ ringFrames ∧ ¬ ("E", "URING_" ++ Spec.fullName "E") ∈ ringFrames := by decide

/-- **C138.** All the other rings have their own frame. -/
theorem C138_frame_partial : ∀ r ∈ ringFrames, r.1 ≠ "E" → r.2 = "URING_" ++ Spec.fullName r.1 := by decide

/-! ## Ranges -/

/-- **C138.** The radii written to the DLP file have room for the windows at all radii that are reconstructed, as long as the sampling
times the normalized equivalent width is not more than the resolution. -/
theorem C138_room (km wd fmax dr res normeq F r : ℚ) (hdr : 0 < dr) (hn : 0 ≤ normeq) (hres : normeq * dr ≤ res) (hr0 : 0 < res)
    (hF : 0 ≤ F ∧ F ≤ fmax) (hr : (recRange km wd).1 ≤ r ∧ r ≤ (recRange km wd).2) :
    ((dlpRange km wd fmax dr).1 : ℚ) ≤ r - 2 * F ^ 2 * normeq / res / 2 ∧ r + 2 * F ^ 2 * normeq / res / 2 ≤ (dlpRange km wd fmax dr).2 := by
  have hw : 2 * F ^ 2 * normeq / res / 2 ≤ fmax ^ 2 / dr := by
    have e : 2 * F ^ 2 * normeq / res / 2 = F ^ 2 * (normeq / res) := by ring
    have h1 : normeq / res ≤ 1 / dr := by
      rw [div_le_div_iff₀ hr0 hdr]
      linarith
    have h2 : F ^ 2 ≤ fmax ^ 2 := pow_le_pow_left₀ hF.1 hF.2 2
    rw [e]
    calc F ^ 2 * (normeq / res) ≤ fmax ^ 2 * (1 / dr) := mul_le_mul h2 h1 (by positivity) (by positivity)
      _ = fmax ^ 2 / dr := by ring
  unfold recRange at hr
  unfold dlpRange
  simp only
  by_cases hwd : 25 < wd
  · rw [if_pos hwd] at hr ⊢
    have a := abs_le.1 (pyRound_err (km - wd - fmax ^ 2 / dr - 1))
    have b := abs_le.1 (pyRound_err (km + wd + fmax ^ 2 / dr + 1))
    simp only at hr ⊢
    constructor <;> linarith [a.1, a.2, b.1, b.2, hr.1, hr.2]
  · rw [if_neg hwd] at hr ⊢
    have a := abs_le.1 (pyRound_err (km - 26 - fmax ^ 2 / dr))
    have b := abs_le.1 (pyRound_err (km + 26 + fmax ^ 2 / dr))
    simp only at hr ⊢
    constructor <;> linarith [a.1, a.2, b.1, b.2, hr.1, hr.2]

/-- The values of pipeline_params.py, with the equivalent width 1.65: ring epsilon on egress. -/
example : (1.65 : ℚ) * 0.005 ≤ 0.02 ∧ recRange 51342.23 74.93 = (51267.3, 51417.16) ∧ dlpRange 51342.23 74.93 3 0.005 = (49466, 53218) := by decide +kernel

/-! ## Columns -/

/-- **C138.** The C library and the script read every column as what it was written as, and the columns that the library converts to
degrees are those written in radians. -/
theorem C138_columns (dep : Bool) : written.map Prod.fst = readOrder .uranus dep ∧ (written.filter Prod.snd).map Prod.fst = angleCols ∧
    ∀ c ∈ ownReader, written[c.2]?.map Prod.fst = some (if c.1 = .tau then .rawTau else c.1) := by
  cases dep <;> decide

/-! ## Phases -/

theorem same_refl (a : ℝ) : Spec.SameAngle a a := ⟨0, by simp⟩

theorem same_trans {a b c : ℝ} (h1 : Spec.SameAngle a b) (h2 : Spec.SameAngle b c) : Spec.SameAngle a c := by
  obtain ⟨m, rfl⟩ := h1
  obtain ⟨n, rfl⟩ := h2
  exact ⟨n + m, by push_cast; ring⟩

theorem jump_same (t p : ℝ) (j : Jump) : Spec.SameAngle (jump t p j) p := by
  unfold jump
  split
  · split
    · exact ⟨j.incr, by ring⟩
    · exact same_refl _
  · split
    · exact ⟨j.incr, by ring⟩
    · exact same_refl _

theorem jumps_same (t p : ℝ) (js : List Jump) : Spec.SameAngle (js.foldl (jump t) p) p := by
  induction js generalizing p with
  | nil => exact same_refl _
  | cons j js ih => exact same_trans (ih _) (jump_same t p j)

/-- The remainder is within half a turn. -/
theorem rewrap_spec (x : ℝ) : -Real.pi ≤ rewrap x ∧ rewrap x < Real.pi ∧ Spec.SameAngle (rewrap x) x := by
  unfold rewrap
  have hp := Real.pi_pos
  have h2 : 0 < 2 * Real.pi := by linarith
  have f1 := Int.floor_le ((x + Real.pi) / (2 * Real.pi))
  have f2 := Int.lt_floor_add_one ((x + Real.pi) / (2 * Real.pi))
  rw [le_div_iff₀ h2] at f1
  rw [div_lt_iff₀ h2] at f2
  refine ⟨by linarith, by linarith, -⌊(x + Real.pi) / (2 * Real.pi)⌋, ?_⟩
  push_cast
  ring

/-- **C138.** Whatever full turns unwrapping and corrections add, the steered phase lies in [-π, π) and is the phase of the signal plus
half a turn minus the fit, up to full turns. -/
theorem C138_phase (unwrap fit : List ℝ → List ℝ) (jumps : List Jump) (spm phase : List ℝ)
    (hu : ∀ l : List ℝ, (unwrap l).length = l.length ∧ ∀ i < l.length, Spec.SameAngle ((unwrap l).getD i 0) (l.getD i 0))
    (hf : ∀ l : List ℝ, (fit l).length = l.length) (hl : spm.length = phase.length) :
    ∃ f : List ℝ, f.length = phase.length ∧ (correctPhase unwrap fit jumps spm phase).length = phase.length ∧ ∀ i < phase.length,
      -Real.pi ≤ (correctPhase unwrap fit jumps spm phase).getD i 0 ∧ (correctPhase unwrap fit jumps spm phase).getD i 0 < Real.pi ∧
      Spec.SameAngle ((correctPhase unwrap fit jumps spm phase).getD i 0) (phase.getD i 0 + Real.pi - f.getD i 0) := by
  unfold correctPhase
  simp only
  obtain ⟨u, hu'⟩ : ∃ u, unwrap (phase.map (· + Real.pi)) = u := ⟨_, rfl⟩
  obtain ⟨l1, s1⟩ := hu (phase.map (· + Real.pi))
  rw [hu'] at l1 s1 ⊢
  rw [List.length_map] at l1 s1
  obtain ⟨p, hp⟩ : ∃ p, List.zipWith (fun t x => jumps.foldl (jump t) x) spm u = p := ⟨_, rfl⟩
  have lp : p.length = phase.length := by
    rw [← hp, List.length_zipWith]
    omega
  rw [hp]
  have lf := hf p
  refine ⟨fit p, by omega, by rw [List.length_zipWith]; omega, fun i hi => ?_⟩
  have e : (List.zipWith (fun x f => rewrap (x - f)) p (fit p)).getD i 0 = rewrap (p.getD i 0 - (fit p).getD i 0) := by
    rw [List.getD_eq_getElem?_getD, List.getElem?_zipWith, List.getD_eq_getElem?_getD, List.getD_eq_getElem?_getD,
      List.getElem?_eq_getElem (by omega : i < p.length), List.getElem?_eq_getElem (by omega : i < (fit p).length)]
    rfl
  have e2 : p.getD i 0 = jumps.foldl (jump (spm.getD i 0)) (u.getD i 0) := by
    rw [← hp, List.getD_eq_getElem?_getD, List.getElem?_zipWith, List.getD_eq_getElem?_getD, List.getD_eq_getElem?_getD,
      List.getElem?_eq_getElem (by omega : i < spm.length), List.getElem?_eq_getElem (by omega : i < u.length)]
    rfl
  have e3 : (phase.map (· + Real.pi)).getD i 0 = phase.getD i 0 + Real.pi := by
    rw [List.getD_eq_getElem?_getD, List.getElem?_map, List.getD_eq_getElem?_getD, List.getElem?_eq_getElem hi]
    rfl
  rw [e]
  obtain ⟨r1, r2, r3⟩ := rewrap_spec (p.getD i 0 - (fit p).getD i 0)
  refine ⟨r1, r2, same_trans r3 ?_⟩
  have s2 : Spec.SameAngle (p.getD i 0) (u.getD i 0) := by
    rw [e2]
    exact jumps_same _ _ _
  have s := same_trans s2 (s1 i hi)
  rw [e3] at s
  obtain ⟨m, hm⟩ := s
  exact ⟨m, by rw [hm]; ring⟩

/-- `unwrap` may do nothing, and the fit may be zero. -/
example : ∀ l : List ℝ, ((fun l => l) l).length = l.length ∧ ∀ i < l.length, Spec.SameAngle (((fun l : List ℝ => l) l).getD i 0) (l.getD i 0) :=
  fun _ => ⟨rfl, fun _ _ => same_refl _⟩

end Verif.Uring
