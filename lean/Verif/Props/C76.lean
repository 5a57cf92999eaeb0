import Verif.Props.C75
import Mathlib.Data.Countable.Basic
import Mathlib.Data.Rat.Encodable

/-!
# C76: times survive the way to SPICE and back
-/
namespace Verif.Rsr
open Spec

/-- The fields of a time of the given day. -/
theorem spmToUtc_day (spm : ℚ) (doy year : Int) (h0 : 0 ≤ spm) (h1 : spm < 86400) (hd : 1 ≤ doy) (hd' : doy ≤ yearLen year)
    (hc : year % 100 ≠ 0 ∨ year % 400 = 0) :
    (spmToUtc spm doy year).year = year ∧ (spmToUtc spm doy year).doy = doy := by
  obtain ⟨H, M, eH, eM, H0, M0, M1, S0, S1⟩ := clock_split h0
  have ed : (if year % 4 = 0 then 366 else 365 : ℚ) = (yearLen year : ℤ) := by
    unfold yearLen
    by_cases h4 : year % 4 = 0
    · have l : isLeap year := ⟨h4, hc⟩
      rw [if_pos h4, if_pos l]; norm_num
    · have l : ¬ isLeap year := fun h => h4 h.1
      rw [if_neg h4, if_neg l]; norm_num
  have hlen : yearLen year = 366 ∨ yearLen year = 365 := by
    unfold yearLen; split <;> simp
  obtain ⟨c1, c2⟩ := calendar_split doy H (yearLen year) (by omega) (by omega)
  have hH : H < 24 := by
    have hM : (0 : ℚ) ≤ M := by exact_mod_cast M0
    have : (H : ℚ) < 24 := by linarith
    exact_mod_cast this
  unfold spmToUtc
  simp only [ed, eH, c1, c2]
  rw [Int.ediv_eq_zero_of_lt H0 hH, add_zero, Int.ediv_eq_zero_of_lt (by omega) (by omega),
    Int.emod_eq_of_lt (by omega) (by omega)]
  omega

/-- **C76** (partial) For every day and every list of times of that day, in order and at least 10⁻¹³ s apart, seconds past
midnight turned to ephemeris time and back are the same to 5·10⁻¹⁴ s, if SPICE's two conversions are inverse.  With a reference
day they are larger by the seconds of the days between.
Missing: lists that pass midnight, see `C76_midnight_false`. -/
theorem C76_round_trip_partial (utc2et : Utc → ℚ) (et2utc : ℚ → Utc) (hinv : ∀ u, et2utc (utc2et u) = u)
    (doy year refDoy : Int) (spm : List ℚ) (hd : 1 ≤ doy) (hd' : doy ≤ yearLen year) (hy : year ≠ 0)
    (hc : year % 100 ≠ 0 ∨ year % 400 = 0) (hr : ∀ s ∈ spm, 0 ≤ s ∧ s < 86400)
    (hsep : ∀ i, i + 1 < spm.length → spm.getD i 0 + 1 / 10 ^ 13 ≤ spm.getD (i + 1) 0)
    (href : refDoy = 0 ∨ 0 < refDoy ∧ refDoy ≤ doy) :
    ∃ ets r, spmToEt utc2et true doy year spm = .ok ets ∧ etToSpm et2utc refDoy ets = .ok r ∧ r.length = spm.length ∧
      ∀ i, i < spm.length →
        |r.getD i 0 - (spm.getD i 0 + if refDoy = 0 then 0 else ((doy : ℚ) - refDoy) * 86400)| ≤ 1 / (2 * 10 ^ 13) := by
  obtain ⟨ets, e1, e2, e3⟩ := C74_array utc2et doy year (by omega) hy spm
  have get : ∀ i (h : i < spm.length), spm.getD i 0 = spm[i] := fun i h => getD_lt _ _ _ h
  have err : ∀ i (h : i < spm.length), |instant (et2utc (ets.getD i 0)) - (midnight year doy + spm.getD i 0)| ≤ 1 / (2 * 10 ^ 13) := by
    intro i h
    have hs := hr spm[i] (List.getElem_mem h)
    rw [e3 i h, hinv, get i h]
    refine (C74_utc_partial _ _ _ hs.1 hd hd' hc ?_).1
    have a : (doy : ℚ) ≤ yearLen year := by exact_mod_cast hd'
    linarith [hs.2]
  obtain ⟨r, r1, r2, r3⟩ := C75_day_partial et2utc ets refDoy year doy
    (by
      intro t ht
      obtain ⟨i, hi, rfl⟩ := List.getElem_of_mem ht
      rw [e2] at hi
      have hs := hr spm[i] (List.getElem_mem hi)
      have : ets[i] = utc2et (spmToUtc spm[i] doy year) := by rw [← e3 i hi, getD_lt _ _ _ (by omega)]
      rw [this, hinv]
      exact spmToUtc_day _ _ _ hs.1 hs.2 hd hd' hc)
    (by
      intro i hi
      rw [e2] at hi
      have a := (abs_le.mp (err i (by omega))).2
      have b := (abs_le.mp (err (i + 1) hi)).1
      have c := hsep i hi
      have n : (1 : ℚ) / (2 * 10 ^ 13) + 1 / (2 * 10 ^ 13) = 1 / 10 ^ 13 := by norm_num
      linarith) href
  refine ⟨ets, r, e1, r1, by omega, fun i hi => ?_⟩
  have := err i hi
  rw [r3 i (by omega)]
  by_cases k : refDoy = 0
  · rw [if_pos k, if_pos k]
    have e : instant (et2utc (ets.getD i 0)) - midnight year doy - (spm.getD i 0 + 0) =
      instant (et2utc (ets.getD i 0)) - (midnight year doy + spm.getD i 0) := by ring
    rw [e]; exact this
  · rw [if_neg k, if_neg k]
    have e : instant (et2utc (ets.getD i 0)) - midnight year refDoy - (spm.getD i 0 + ((doy : ℚ) - refDoy) * 86400) =
      instant (et2utc (ets.getD i 0)) - (midnight year doy + spm.getD i 0) := by unfold midnight; ring
    rw [e]; exact this

example (utc2et : Utc → ℚ) (et2utc : ℚ → Utc) (hinv : ∀ u, et2utc (utc2et u) = u) :
    ∃ ets r, spmToEt utc2et true 123 2005 [86100, 86200] = .ok ets ∧ etToSpm et2utc 122 ets = .ok r ∧ r.length = 2 := by
  obtain ⟨ets, r, h1, h2, h3, -⟩ := C76_round_trip_partial utc2et et2utc hinv 123 2005 122 [86100, 86200] (by decide)
    (by decide) (by decide) (by decide) (by decide +kernel)
    (by
      intro i hi
      have : i = 0 := by simp at hi; omega
      subst this; decide +kernel) (by omega)
  exact ⟨ets, r, h1, h2, h3⟩

/-- **C76** is false for lists that pass midnight, as all occultations that last into the next day do: 86500 s come back as
86200 s, with any SPICE. -/
theorem C76_midnight_false (utc2et : Utc → ℚ) (et2utc : ℚ → Utc) (hinv : ∀ u, et2utc (utc2et u) = u) :
    ∃ ets, spmToEt utc2et true 123 2005 [86100, 86500] = .ok ets ∧ etToSpm et2utc 0 ets = .ok [86100, 86200] := by
  refine ⟨_, rfl, ?_⟩
  unfold etToSpm
  simp only [List.map_cons, List.map_nil, hinv, if_pos]
  decide +kernel

/-- The hypotheses on SPICE can be met. -/
example : ∃ (utc2et : Utc → ℚ) (et2utc : ℚ → Utc), ∀ u, et2utc (utc2et u) = u := by
  have : Countable Utc := by
    let f : Utc → ℤ × ℤ × ℤ × ℤ × ℚ := fun u => (u.year, u.doy, u.hour, u.minute, u.second)
    have : Function.Injective f := by
      rintro ⟨a, b, c, d, e⟩ ⟨a', b', c', d', e'⟩ h
      simp only [f, Prod.mk.injEq] at h
      obtain ⟨rfl, rfl, rfl, rfl, rfl⟩ := h
      rfl
    exact this.countable
  obtain ⟨f, hf⟩ := exists_injective_nat Utc
  exact ⟨fun u => (f u : ℚ), fun q => @Function.invFun _ _ ⟨⟨0, 0, 0, 0, 0⟩⟩ (fun u => (f u : ℚ)) q, fun u => by
    have : Nonempty Utc := ⟨⟨0, 0, 0, 0, 0⟩⟩
    exact Function.leftInverse_invFun (f := fun u : Utc => (f u : ℚ)) (fun a b h => hf (Nat.cast_injective (R := ℚ) h)) u⟩

end Verif.Rsr
