import Verif.Model.FofRange
import Verif.Props.C86

/-!
# C147: the frequency offset is measured during the occultation

rss_ringoccs/calibration/freq_offset_fit.py 98-141.
-/
namespace Verif.Fof
open Verif.Rsr Verif.Geo

namespace Spec

/-- The sample `k`, at the time `t`, sees the rings. -/
def Rings (spm rho : List ℚ) (k : Nat) (t : ℚ) : Prop := spm[k]? = some t ∧ ∃ r, rho[k]? = some r ∧ 65000 < r ∧ r < 175000

/-- The Cassini oscillator gives coherent frequencies S : X : Ka = 3 : 11 : 41.8. -/
def ratio : Char → Option ℚ
  | 'X' => some 1
  | 'S' => some (3 / 11)
  | 'K' => some (418 / 110)
  | _ => none

end Spec
open Spec

/-- The frequency has the ratio of its band, and only the three bands are accepted. -/
theorem C147_band (band : Char) (fx : ℚ) : uso band fx = match ratio band with | some q => .ok (fx * q) | none => .error .value := by
  unfold uso
  by_cases h1 : band = 'X'
  · subst h1; simp [ratio]
  by_cases h2 : band = 'S'
  · subst h2; simp [ratio]
  by_cases h3 : band = 'K'
  · subst h3
    rw [if_neg (by decide), if_neg (by decide), if_pos rfl]
    show _ = Except.ok (fx * (418 / 110))
    norm_num
  rw [if_neg h1, if_neg h2, if_neg h3]
  unfold ratio
  split <;> simp_all

example : uso 'K' 8427222034 = .ok (8427222034 * 38 / 10) := by rw [C147_band]; show Except.ok _ = Except.ok _; norm_num

theorem mem_within {spm rho : List ℚ} {t : ℚ} : t ∈ within spm rho ↔ ∃ k, Rings spm rho k t := by
  unfold within Rings
  simp only [List.mem_map, List.mem_filter, decide_eq_true_eq, Prod.exists, exists_and_right, exists_eq_right]
  constructor
  · rintro ⟨r, hm, hr⟩
    obtain ⟨k, hk⟩ := List.mem_iff_getElem?.mp hm
    rw [List.getElem?_zip_eq_some] at hk
    exact ⟨k, hk.1, r, hk.2, hr⟩
  · rintro ⟨k, hs, r, hr, hb⟩
    exact ⟨r, List.mem_iff_getElem?.mpr ⟨k, List.getElem?_zip_eq_some.mpr ⟨hs, hr⟩⟩, hb⟩

/-- Limits more than 100 s apart are taken as they are. -/
theorem C147_limits {a b : ℚ} (h : 100 < b - a) (year doy : ℕ) (spm rho : List ℚ) : range (some [a, b]) year doy spm rho = .ok (a, b) := if_pos h

example : range (some [1000, 1200]) 2005 123 [0, 1] [80000, 80010] = .ok (1000, 1200) := C147_limits (by norm_num) _ _ _ _

/-- Without limits, with three samples of the rings, and on any other day than day 39 of 2008, the range begins and ends with a sample of the rings and
has all of them. (Full claim: always; see `C147_day_false`, `C147_few_false`, `C147_near_false`.) -/
theorem C147_range_partial {year doy : ℕ} {spm rho : List ℚ} (hd : ¬ (year = 2008 ∧ doy = 39)) (h3 : 2 < (within spm rho).length) :
    ∃ lo hi, range none year doy spm rho = .ok (lo, hi) ∧ (∃ k, Rings spm rho k lo) ∧ (∃ k, Rings spm rho k hi) ∧
      ∀ k t, Rings spm rho k t → lo ≤ t ∧ t ≤ hi := by
  have hne : within spm rho ≠ [] := by
    intro e
    rw [e] at h3
    simp at h3
  obtain ⟨lo, e1, m1, l1⟩ := pyMinL_spec _ hne
  obtain ⟨hi, e2, m2, l2⟩ := pyMaxL_spec _ hne
  refine ⟨lo, hi, ?_, mem_within.mp m1, mem_within.mp m2, fun k t ht => ⟨l1 t (mem_within.mpr ⟨k, ht⟩), l2 t (mem_within.mpr ⟨k, ht⟩)⟩⟩
  simp only [range, byRadius, if_neg hd, if_pos h3, e1, e2, bind, Except.bind, pure, Except.pure]

/-- A chord: the part between, behind the planet, is in the range as well. -/
example : range none 2008 40 [0, 1, 2, 3, 4, 5, 6] [200000, 100000, 70000, 60000, 80000, 100000, 180000] = .ok (1, 5) ∧
    ¬ Rings [0, 1, 2, 3, 4, 5, 6] [200000, 100000, 70000, 60000, 80000, 100000, 180000] 3 3 := by
  constructor
  · obtain ⟨lo, hi, h, ⟨i, hi1⟩, ⟨j, hj⟩, hall⟩ := C147_range_partial (year := 2008) (doy := 40) (spm := [0, 1, 2, 3, 4, 5, 6])
      (rho := [200000, 100000, 70000, 60000, 80000, 100000, 180000]) (by decide) (by decide +kernel)
    rw [h]
    exact (by decide +kernel : range none 2008 40 [0, 1, 2, 3, 4, 5, 6] [200000, 100000, 70000, 60000, 80000, 100000, 180000] = .ok (1, 5)) ▸ h.symm
  · rintro ⟨-, r, hr, hb, -⟩
    simp only [List.getElem?_cons_succ, List.getElem?_cons_zero, Option.some.injEq] at hr
    subst hr
    norm_num at hb

/-- On day 39 of 2008 the range is fixed, whatever was recorded. -/
theorem C147_day_false (spm rho : List ℚ) : range none 2008 39 spm rho = .ok (64000, 67000) := rfl

/-- With fewer than three samples of the rings the whole recording is taken, and the program goes on. -/
theorem C147_few_false {year doy : ℕ} {spm rho : List ℚ} {t u : ℚ} {mid : List ℚ} (hd : ¬ (year = 2008 ∧ doy = 39)) (hs : spm = t :: mid ++ [u])
    (h3 : (within spm rho).length ≤ 2) : range none year doy spm rho = .ok (t, u) := by
  subst hs
  have hl : (t :: (mid ++ [u])).getLastD t = u := by
    rw [← List.cons_append, List.getLastD_concat]
  simp only [range, byRadius, if_neg hd, if_neg (Nat.not_lt.mpr h3)]
  show Except.ok (t, (t :: (mid ++ [u])).getLastD t) = _
  rw [hl]

example : range none 2005 123 [0, 1, 2, 3] [190000, 185000, 180000, 170000] = .ok (0, 3) :=
  C147_few_false (mid := [1, 2]) (by decide) rfl (by decide +kernel)

/-- Limits that are not more than 100 s apart, or in the wrong order, are ignored without a message. -/
theorem C147_near_false {a b : ℚ} (h : b - a ≤ 100) (year doy : ℕ) (spm rho : List ℚ) :
    range (some [a, b]) year doy spm rho = range none year doy spm rho := if_neg (not_lt.mpr h)

example : range (some [30000, 10000]) 2005 123 [0, 1, 2, 3] [100000, 100010, 100020, 100030] = .ok (0, 3) := by
  rw [C147_near_false (by norm_num)]
  decide +kernel

end Verif.Fof
