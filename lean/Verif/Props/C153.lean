import Verif.Model.DtauGrid
import Mathlib.Tactic.Ring
import Mathlib.Tactic.NormNum
import Mathlib.Data.Rat.Defs
import Mathlib.Algebra.Order.Ring.Rat
import Mathlib.Algebra.Field.Rat
import Mathlib.Data.List.Sort

/-!
# C153 and C159: the grid of differential optical depths

rss_ringoccs/tools/dtau_partsize.py.
-/
namespace Verif.Dtau

variable {R : Type} [Field R] [LinearOrder R]

namespace Spec

/-- The optical depth of one band for the radii between two bounds: the weighted sum of `r² Q n`. -/
def depth (L : Libs R) (diams : List R) (w q lo hi : R) : R :=
  let ds := diams.filter fun d => decide (lo ≤ d / 2) && decide (d / 2 ≤ hi)
  (List.zipWith (fun c d => c * ((d / 2) ^ 2 * L.eff w d * L.size (d / 2) q)) (L.weights (ds.map (· / 2))) ds).sum

/-- The difference of two depths relative to that of X; not a number when that is zero. -/
def relative (a b x : R) : Option R := if x = 0 then none else some ((a - b) / x)

/-- A number from 0 to 999 with three digits. -/
def three (n : Nat) : List Char := [Nat.digitChar (n / 100), Nat.digitChar (n / 10 % 10), Nat.digitChar (n % 10)]

/-- The documented name `./dtau_miescatt_partsize_grid_mRRRiIII.csv`. -/
def documented (re im : Nat) : List Char :=
  "/dtau_miescatt_partsize_grid_m".toList ++ three re ++ 'i' :: three im ++ ".csv".toList

end Spec
open Spec

/-- An element of lists of equal length put one after the other. -/
theorem flatMap_at {α β : Type} (f : α → List β) (m : Nat) {l : List α} (hf : ∀ a ∈ l, (f a).length = m) {i j : Nat} {a : α} (hi : l[i]? = some a)
    (hj : j < m) : (l.flatMap f)[i * m + j]? = (f a)[j]? := by
  induction l generalizing i with
  | nil => simp at hi
  | cons b l ih =>
    have hb := hf b (by simp)
    rw [List.flatMap_cons]
    cases i with
    | zero =>
      simp only [List.getElem?_cons_zero, Option.some.injEq] at hi
      rw [← hi, Nat.zero_mul, Nat.zero_add, List.getElem?_append_left (by omega)]
    | succ i =>
      simp only [List.getElem?_cons_succ] at hi
      have h1 : (i + 1) * m + j = m + (i * m + j) := by ring
      rw [h1, List.getElem?_append_right (by omega), hb, Nat.add_sub_cancel_left]
      exact ih (fun x hx => hf x (List.mem_cons_of_mem _ hx)) hi

theorem flatMap_len {α β : Type} (f : α → List β) (m : Nat) {l : List α} (hf : ∀ a ∈ l, (f a).length = m) : (l.flatMap f).length = l.length * m := by
  induction l with
  | nil => simp
  | cons b l ih =>
    rw [List.flatMap_cons, List.length_append, ih fun x hx => hf x (List.mem_cons_of_mem _ hx), hf b (by simp), List.length_cons]
    ring

/-- The lines for one greatest radius and one slope. -/
def block (L : Libs R) (pts : List (Pt R)) (amins : List R) (amax q : R) : List (List Char) :=
  amins.map fun amin => commas (cells L q amax amin (integrals L pts q amax amin))

theorem zip_map_self {α β γ : Type} (l : List α) (f : α → β) (g : α → β → γ) : (l.zip (l.map f)).map (fun m => g m.1 m.2) = l.map fun a => g a (f a) := by
  induction l with
  | nil => rfl
  | cons a l ih => simp only [List.map_cons, List.zip_cons_cons, ih]

theorem slopes_eq (L : Libs R) (pts : List (Pt R)) (write : Bool) (amins : List R) (amax : R) (qs : List R) (g : Grid R) :
    qs.foldl (slope L pts write amins amax) g =
      ⟨if write then g.lines ++ qs.flatMap (block L pts amins amax) else g.lines,
        g.kx ++ qs.map fun q => amins.map fun amin => quot (integrals L pts q amax amin).2.1 (integrals L pts q amax amin).1,
        g.xs ++ qs.map fun q => amins.map fun amin => quot (integrals L pts q amax amin).2.2 (integrals L pts q amax amin).1⟩ := by
  induction qs generalizing g with
  | nil => cases write <;> simp
  | cons q qs ih =>
    rw [List.foldl_cons, ih]
    simp only [slope, zip_map_self amins _ (fun a t => commas (cells L q amax a t)), List.map_map, List.flatMap_cons, List.map_cons, block, List.append_assoc]
    cases write <;> simp [Function.comp_def]

theorem radii_eq (L : Libs R) (pts : List (Pt R)) (write : Bool) (amins qs amaxs : List R) (g : Grid R) :
    amaxs.foldl (fun g amax => qs.foldl (slope L pts write amins amax) g) g =
      ⟨if write then g.lines ++ amaxs.flatMap (fun amax => qs.flatMap (block L pts amins amax)) else g.lines,
        g.kx ++ amaxs.flatMap fun amax => qs.map fun q => amins.map fun amin => quot (integrals L pts q amax amin).2.1 (integrals L pts q amax amin).1,
        g.xs ++ amaxs.flatMap fun amax => qs.map fun q => amins.map fun amin => quot (integrals L pts q amax amin).2.2 (integrals L pts q amax amin).1⟩ := by
  induction amaxs generalizing g with
  | nil => cases write <;> simp
  | cons a as ih =>
    rw [List.foldl_cons, ih, slopes_eq]
    cases write <;> simp [List.append_assoc]

theorem sum_sub (c : List R) (f g : R → R) (h : R → R) (ds : List R) (hh : ∀ d, h d = f d - g d) :
    (List.zipWith (· * ·) c (ds.map h)).sum = (List.zipWith (fun a d => a * f d) c ds).sum - (List.zipWith (fun a d => a * g d) c ds).sum := by
  induction c generalizing ds with
  | nil => simp
  | cons a c ih =>
    cases ds with
    | nil => simp
    | cons d ds =>
      simp only [List.map_cons, List.zipWith_cons_cons, List.sum_cons, ih, hh]
      ring

theorem sum_map (c : List R) (f : R → R) (ds : List R) :
    (List.zipWith (· * ·) c (ds.map f)).sum = (List.zipWith (fun a d => a * f d) c ds).sum := by
  induction c generalizing ds with
  | nil => simp
  | cons a c ih =>
    cases ds with
    | nil => simp
    | cons d ds => simp only [List.map_cons, List.zipWith_cons_cons, List.sum_cons, ih]

theorem integrals_eq (L : Libs R) (wK wX wS q amax amin : R) (diams : List R) :
    integrals L (diams.map fun d => ⟨d / 2, L.eff wK d, L.eff wX d, L.eff wS d⟩) q amax amin =
      (depth L diams wX q amin amax, depth L diams wK q amin amax - depth L diams wX q amin amax,
        depth L diams wX q amin amax - depth L diams wS q amin amax) := by
  simp only [integrals, List.filter_map, Function.comp_def, List.map_map, simps, integrand, depth]
  rw [sum_map, sum_sub _ (fun d => (d / 2) ^ 2 * L.eff wK d * L.size (d / 2) q) (fun d => (d / 2) ^ 2 * L.eff wX d * L.size (d / 2) q) _ _
    (fun d => by ring), sum_sub _ (fun d => (d / 2) ^ 2 * L.eff wX d * L.size (d / 2) q) (fun d => (d / 2) ^ 2 * L.eff wS d * L.size (d / 2) q) _ _
    (fun d => by ring)]

theorem at_of_ok {L : Libs R} {wK wX wS : R} {qs amins amaxs : List R} {write : Bool} {g : Grid R} (h : predict L wK wX wS qs amins amaxs write = some g) :
    ∃ lo hi, amins.head? = some lo ∧ amaxs.getLast? = some hi ∧
      g = ⟨if write then commas heads :: amaxs.flatMap (fun amax => qs.flatMap
            (block L ((L.diameters (2 * lo) (2 * hi)).map fun d => ⟨d / 2, L.eff wK d, L.eff wX d, L.eff wS d⟩) amins amax)) else [],
        amaxs.flatMap fun amax => qs.map fun q => amins.map fun amin => relative (depth L (L.diameters (2 * lo) (2 * hi)) wK q amin amax)
          (depth L (L.diameters (2 * lo) (2 * hi)) wX q amin amax) (depth L (L.diameters (2 * lo) (2 * hi)) wX q amin amax),
        amaxs.flatMap fun amax => qs.map fun q => amins.map fun amin => relative (depth L (L.diameters (2 * lo) (2 * hi)) wX q amin amax)
          (depth L (L.diameters (2 * lo) (2 * hi)) wS q amin amax) (depth L (L.diameters (2 * lo) (2 * hi)) wX q amin amax)⟩ := by
  unfold predict points at h
  cases h1 : amins.head? with
  | none => simp [h1] at h
  | some lo =>
    cases h2 : amaxs.getLast? with
    | none => simp [h1, h2] at h
    | some hi =>
      refine ⟨lo, hi, rfl, rfl, ?_⟩
      simp only [h1, h2, radii_eq, Option.some.injEq, integrals_eq, List.nil_append] at h
      rw [← h]
      cases write <;> rfl

/-- **C153.** There are as many rows as greatest radii times slopes, and as many columns as smallest radii. -/
theorem C153_shape {L : Libs R} {wK wX wS : R} {qs amins amaxs : List R} {write : Bool} {g : Grid R} (h : predict L wK wX wS qs amins amaxs write = some g) :
    g.kx.length = amaxs.length * qs.length ∧ g.xs.length = amaxs.length * qs.length ∧ (∀ r ∈ g.kx, r.length = amins.length) ∧
      (∀ r ∈ g.xs, r.length = amins.length) ∧ g.lines.length = if write then 1 + amaxs.length * (qs.length * amins.length) else 0 := by
  obtain ⟨lo, hi, -, -, rfl⟩ := at_of_ok h
  refine ⟨flatMap_len _ _ fun _ _ => List.length_map .., flatMap_len _ _ fun _ _ => List.length_map .., ?_, ?_, ?_⟩
  · intro r hr
    simp only [List.mem_flatMap, List.mem_map] at hr
    obtain ⟨_, _, _, _, rfl⟩ := hr
    exact List.length_map ..
  · intro r hr
    simp only [List.mem_flatMap, List.mem_map] at hr
    obtain ⟨_, _, _, _, rfl⟩ := hr
    exact List.length_map ..
  · cases write
    · rfl
    · simp only [if_true, List.length_cons]
      rw [flatMap_len _ (qs.length * amins.length) fun _ _ => flatMap_len _ _ fun _ _ => by rw [block, List.length_map]]
      omega

/-- **C153.** Each value is the difference of two depths relative to that of X, of the radii from the smallest to the greatest that belong
to its column and its row. -/
theorem C153_value {L : Libs R} {wK wX wS : R} {qs amins amaxs : List R} {write : Bool} {g : Grid R} (h : predict L wK wX wS qs amins amaxs write = some g)
    {i j k : Nat} {amax q amin : R} (hi : amaxs[i]? = some amax) (hj : qs[j]? = some q) (hk : amins[k]? = some amin) :
    ∃ lo hi, amins.head? = some lo ∧ amaxs.getLast? = some hi ∧ ∃ rk rx, g.kx[i * qs.length + j]? = some rk ∧ g.xs[i * qs.length + j]? = some rx ∧
      let D := fun w => depth L (L.diameters (2 * lo) (2 * hi)) w q amin amax
      rk[k]? = some (relative (D wK) (D wX) (D wX)) ∧ rx[k]? = some (relative (D wX) (D wS) (D wX)) := by
  obtain ⟨lo, hi', hl, hh, rfl⟩ := at_of_ok h
  have hj' : j < qs.length := (List.getElem?_eq_some_iff.mp hj).1
  have row : ∀ f : R → R → R → Option R, (amaxs.flatMap fun amax => qs.map fun q => amins.map fun amin => f q amin amax)[i * qs.length + j]? =
      some (amins.map fun amin => f q amin amax) := by
    intro f
    rw [flatMap_at _ _ (fun _ _ => List.length_map ..) hi hj', List.getElem?_map, hj]
    rfl
  refine ⟨lo, hi', hl, hh, _, _, row fun q amin amax => relative (depth L (L.diameters (2 * lo) (2 * hi')) wK q amin amax)
    (depth L (L.diameters (2 * lo) (2 * hi')) wX q amin amax) (depth L (L.diameters (2 * lo) (2 * hi')) wX q amin amax),
    row fun q amin amax => relative (depth L (L.diameters (2 * lo) (2 * hi')) wX q amin amax)
    (depth L (L.diameters (2 * lo) (2 * hi')) wS q amin amax) (depth L (L.diameters (2 * lo) (2 * hi')) wX q amin amax), ?_⟩
  intro D
  refine ⟨?_, ?_⟩ <;> · rw [List.getElem?_map, hk]; rfl

/-- **C153.** The file has, after the headings, the line of each triple in the order of the loops, and the last two cells are the values
that are returned. -/
theorem C153_line {L : Libs R} {wK wX wS : R} {qs amins amaxs : List R} {g : Grid R} (h : predict L wK wX wS qs amins amaxs true = some g)
    {i j k : Nat} {amax q amin : R} (hi : amaxs[i]? = some amax) (hj : qs[j]? = some q) (hk : amins[k]? = some amin) :
    ∃ a b, (∃ r, g.kx[i * qs.length + j]? = some r ∧ r[k]? = some a) ∧ (∃ r, g.xs[i * qs.length + j]? = some r ∧ r[k]? = some b) ∧
      g.lines[1 + ((i * qs.length + j) * amins.length + k)]? =
        some (L.cell (some (L.log10 amin - 6)) ++ ',' :: (L.cell (some (L.log10 amax - 6)) ++ ',' :: (L.cell (some q) ++ ',' :: (L.cell a ++ ',' :: L.cell b)))) := by
  obtain ⟨lo, hi', hl, hh, rk, rx, h1, h2, h3, h4⟩ := C153_value h hi hj hk
  refine ⟨_, _, ⟨rk, h1, h3⟩, ⟨rx, h2, h4⟩, ?_⟩
  obtain ⟨lo', hi'', hl', hh', rfl⟩ := at_of_ok h
  rw [hl] at hl'; cases hl'
  rw [hh] at hh'; cases hh'
  have hj' : j < qs.length := (List.getElem?_eq_some_iff.mp hj).1
  have hk' : k < amins.length := (List.getElem?_eq_some_iff.mp hk).1
  have e : (i * qs.length + j) * amins.length + k = i * (qs.length * amins.length) + (j * amins.length + k) := by ring
  have hb : j * amins.length + k < qs.length * amins.length := by
    have : (j + 1) * amins.length ≤ qs.length * amins.length := Nat.mul_le_mul_right _ hj'
    rw [Nat.add_mul] at this
    omega
  simp only [if_true]
  rw [Nat.add_comm 1, List.getElem?_cons_succ, e, flatMap_at _ (qs.length * amins.length) (fun _ _ => flatMap_len _ _ fun _ _ => by rw [block, List.length_map]) hi hb,
    flatMap_at _ amins.length (fun _ _ => by rw [block, List.length_map]) hj hk']
  simp only [block, List.getElem?_map, hk, Option.map_some, cells, integrals_eq, List.map_cons, List.map_nil, commas]
  rfl

/-- **C153.** What is returned does not depend on whether the file is written. -/
theorem C153_write (L : Libs R) (wK wX wS : R) (qs amins amaxs : List R) :
    (predict L wK wX wS qs amins amaxs true).map (fun g => (g.kx, g.xs)) = (predict L wK wX wS qs amins amaxs false).map (fun g => (g.kx, g.xs)) := by
  unfold predict
  cases points L wK wX wS amins amaxs with
  | none => rfl
  | some pts => simp only [radii_eq, Option.map_some]

/-- **C153.** When the bands have the same efficiencies, every value is zero or not a number. -/
theorem C153_equal {L : Libs R} {wK wX wS : R} (he : ∀ d, L.eff wK d = L.eff wX d) {qs amins amaxs : List R} {write : Bool} {g : Grid R}
    (h : predict L wK wX wS qs amins amaxs write = some g) {r : List (Option R)} (hr : r ∈ g.kx) {v : R} (hv : some v ∈ r) : v = 0 := by
  obtain ⟨lo, hi, -, -, rfl⟩ := at_of_ok h
  simp only [List.mem_flatMap, List.mem_map] at hr
  obtain ⟨a, _, q, _, rfl⟩ := hr
  obtain ⟨m, _, hm⟩ := List.mem_map.mp hv
  have : depth L (L.diameters (2 * lo) (2 * hi)) wK q m a = depth L (L.diameters (2 * lo) (2 * hi)) wX q m a := by simp only [depth, he]
  rw [this, relative, sub_self, zero_div] at hm
  split at hm
  · cases hm
  · exact (Option.some.inj hm).symm

/-- Two nodes and two bounds, so that the greatest radius of the first row leaves one node. -/
def demo : Libs ℚ where
  diameters lo hi := [lo, hi]
  eff w _ := w
  weights xs := xs.map fun _ => 1
  size _ _ := 1
  log10 x := x
  cell v := match v with | none => ['n'] | some x => Nat.toDigits 10 x.num.natAbs

/-- Two greatest radii, a slope and two smallest radii. -/
example : (predict demo 5 4 1 [3] [1, 2] [1, 2] true).map Grid.kx = some [[some (1 / 4), none], [some (1 / 4), some (1 / 4)]] ∧
    (predict demo 5 4 1 [3] [1, 2] [1, 2] true).map Grid.xs = some [[some (3 / 4), none], [some (3 / 4), some (3 / 4)]] := by decide +kernel

/-- Equal efficiencies. -/
example : (predict demo 4 4 1 [3] [1, 2] [1, 2] false).map Grid.kx = some [[some 0, none], [some 0, some 0]] := by decide +kernel

/-- The nodes of PyMieScatt go from the first to the second bound. -/
def Spans [LE R] (L : Libs R) : Prop := ∀ lo hi, ∀ d ∈ L.diameters lo hi, lo ≤ d ∧ d ≤ hi

/-- **C159.** (Full claim: for every smallest and greatest radius of the lists the nodes reach both.)  When the first smallest radius is the
least one and the last greatest radius the greatest one, the bounds of the nodes enclose each of the ranges. -/
theorem C159_reach_partial {amins amaxs : List ℚ} (h1 : amins.Pairwise (· ≤ ·)) (h2 : amaxs.Pairwise (· ≤ ·)) {lo hi : ℚ} (hl : amins.head? = some lo)
    (hh : amaxs.getLast? = some hi) {amin amax : ℚ} (ha : amin ∈ amins) (hb : amax ∈ amaxs) : lo ≤ amin ∧ amax ≤ hi := by
  constructor
  · cases amins with
    | nil => cases hl
    | cons a as =>
      cases hl
      rcases List.mem_cons.mp ha with rfl | ha
      · exact le_refl _
      · exact List.rel_of_pairwise_cons h1 ha
  · obtain ⟨ys, rfl⟩ := List.getLast?_eq_some_iff.mp hh
    rcases List.mem_append.mp hb with hb | hb
    · exact (List.pairwise_append.mp h2).2.2 _ hb _ (by simp)
    · rw [List.mem_singleton.mp hb]

/-- The suggested lists are in order. -/
example : (1 : ℚ) ≤ 2 ∧ (3 : ℚ) ≤ 10 := C159_reach_partial (amins := [1, 2, 5]) (amaxs := [3, 10]) (by decide +kernel) (by decide +kernel) rfl rfl
  (by decide +kernel) (by decide +kernel)

/-- **C159.** With the smallest radii in falling order, nodes below the first are missing for the others: whatever is between gives no
contribution, even if the efficiency there is not zero. -/
theorem C159_reach_false : ∃ (L : Libs ℚ), Spans L ∧ ∃ g, predict L 5 4 1 [3] [2, 1] [2] false = some g ∧ g.kx = [[some (1 / 4), some (1 / 4)]] ∧
    ∀ d ∈ L.diameters (2 * 2) (2 * 2), ¬ d / 2 < 2 := by
  refine ⟨⟨fun lo hi => if lo ≤ hi then [lo, hi] else [], fun w _ => w, fun xs => xs.map fun _ => 1, fun _ _ => 1, id, fun _ => []⟩, ?_, ?_⟩
  · intro lo hi d hd
    simp only at hd
    split at hd
    · rename_i hle
      simp only [List.mem_cons, List.not_mem_nil, or_false] at hd
      rcases hd with rfl | rfl
      · exact ⟨le_refl _, hle⟩
      · exact ⟨hle, le_refl _⟩
    · cases hd
  · refine ⟨_, rfl, by decide +kernel, by decide +kernel⟩

theorem three_digits : ∀ n < 1000, 100 ≤ n → digits n = three n ∧ (digits n).length = 3 := by decide +kernel

theorem parts_eq (p c : List Char) {r r' i i' : List Char} (hr : r = r') (hi : i = i') : p ++ r ++ 'i' :: i ++ c = p ++ r' ++ 'i' :: i' ++ c := by
  rw [hr, hi]

theorem parts_inj {p c r r' i i' : List Char} (hr : r.length = r'.length) (h : p ++ r ++ 'i' :: i ++ c = p ++ r' ++ 'i' :: i' ++ c) : i = i' := by
  simp only [List.append_assoc, List.append_cancel_left_eq, List.cons_append] at h
  exact List.append_cancel_right (List.cons.inj (List.append_inj h hr).2).2

/-- **C159.** (Full claim: the name of the file is the documented one.)  With a real and an imaginary part of three digits it is. -/
theorem C159_name_partial {re im : Nat} (h1 : 100 ≤ re ∧ re < 1000) (h2 : 100 ≤ im ∧ im < 1000) : fileName re im = documented re im := by
  obtain ⟨a1, a2⟩ := three_digits re h1.2 h1.1
  obtain ⟨b1, b2⟩ := three_digits im h2.2 h2.1
  have hr : realPart re = three re := by unfold realPart; rw [if_neg (by omega), if_neg (by omega), a1]
  have hl : (three re).length = 3 := rfl
  have hi : imagPart re im = three im := by unfold imagPart; rw [hr, hl, if_neg (by omega), if_neg (by decide), b1]
  exact parts_eq _ _ hr hi

/-- An absorbing material. -/
example : fileName 178 120 = "/dtau_miescatt_partsize_grid_m178i120.csv".toList := by
  rw [C159_name_partial (by decide) (by decide)]; decide

/-- **C159.** Solid ice, the documented example, is written to `m178i0.csv`, not to `m178i000.csv`. -/
theorem C159_name_false : fileName 178 0 = "/dtau_miescatt_partsize_grid_m178i0.csv".toList ∧
    documented 178 0 = "/dtau_miescatt_partsize_grid_m178i000.csv".toList ∧ fileName 178 0 ≠ documented 178 0 := by decide +kernel

/-- **C159.** Indices with the imaginary parts 0.10 and 1.00 are written to one file: the second run overwrites the first. -/
theorem C159_clash_false : ∃ re im im', im ≠ im' ∧ fileName re im = fileName re im' := ⟨178, 10, 100, by decide, by decide +kernel⟩

theorem real_three : ∀ n < 1000, (realPart n).length = 3 := by decide +kernel

theorem imag_two : ∀ im < 100, (if (digits im).length = 2 then digits im ++ ['0'] else digits im) ≠ three im := by decide +kernel

/-- **C159.** No imaginary part below one is written as documented. -/
theorem C159_leading_false {re im : Nat} (hr : re < 1000) (h : im < 100) : fileName re im ≠ documented re im := by
  intro he
  have hl := real_three re hr
  have h3 : (three re).length = 3 := rfl
  have he3 := parts_inj (hl.trans h3.symm) he
  have hi : imagPart re im = if (digits im).length = 2 then digits im ++ ['0'] else digits im := by
    simp only [imagPart, hl, (by decide : ¬ (3 : Nat) = 1), if_false]
  exact imag_two im h (hi ▸ he3)

/-- Slightly absorbing ice: 1.78 + 0.05 i is written to `m178i5.csv`. -/
example : fileName 178 5 = "/dtau_miescatt_partsize_grid_m178i5.csv".toList ∧ fileName 178 5 ≠ documented 178 5 :=
  ⟨by decide, C159_leading_false (by decide) (by decide)⟩

end Verif.Dtau
