import Verif.Props.C97

/-!
# C98: the direction of a profile
-/
namespace Verif.Cal
open Verif.Rsr Verif.Geo Verif.Geo.Spec Verif.Cal.Spec

theorem zip_places {idx : List Nat} {rho spm r s : List ℚ} (hr : r = idx.map (fun i => rho.getD i 0))
    (hs : s = idx.map (fun i => spm.getD i 0)) {i : Nat} (hi : i ∈ idx) : (rho.getD i 0, spm.getD i 0) ∈ r.zip s := by
  obtain ⟨k, hk, rfl⟩ := List.getElem_of_mem hi
  rw [List.mem_iff_getElem]
  refine ⟨k, by rw [hr, hs]; simpa using hk, ?_⟩
  simp only [hr, hs, List.getElem_zip, List.getElem_map]

/-- If a row has the sign of velocity that the direction asks for, all rows of the profile have it (or velocity 0), and no such row
is lost. -/
theorem C98_velocity_partial {g : DlpIn} {rho spm pNorm : List ℚ} {iq : List (ℚ × ℚ)} {r : DlpRows}
    (h : setRows g rho spm pNorm iq = .ok r) (h1 : rho.length = spm.length) (h2 : pNorm.length = spm.length)
    (h3 : iq.length = spm.length) :
    (g.dir = .ingress → (∃ t ∈ spm, npInterp g.spm g.rhoDot t < 0) → (∀ v ∈ r.rhoDot, v ≤ 0) ∧
      ∀ i, i < spm.length → npInterp g.spm g.rhoDot (spm.getD i 0) ≤ 0 → (rho.getD i 0, spm.getD i 0) ∈ r.rho.zip r.spm) ∧
    (g.dir = .egress → (∃ t ∈ spm, 0 < npInterp g.spm g.rhoDot t) → (∀ v ∈ r.rhoDot, 0 ≤ v) ∧
      ∀ i, i < spm.length → 0 ≤ npInterp g.spm g.rhoDot (spm.getD i 0) → (rho.getD i 0, spm.getD i 0) ∈ r.rho.zip r.spm) := by
  obtain ⟨idx, -, bd, r1, r2, r3, r4, r5, r6, r7, mem⟩ := setRows_ok h h1 h2 h3
  have row : ∀ v ∈ r.rhoDot, ∃ i ∈ idx, v = npInterp g.spm g.rhoDot (spm.getD i 0) := by
    intro v hv
    rw [r5, r2, List.map_map] at hv
    obtain ⟨i, hi, rfl⟩ := List.mem_map.mp hv
    exact ⟨i, hi, rfl⟩
  have el : ∀ i, i < spm.length → spm.getD i 0 ∈ spm := fun i hi => by rw [getD_at hi]; exact List.getElem_mem _
  constructor
  · intro hd hx
    constructor
    · intro v hv
      obtain ⟨i, hi, rfl⟩ := row v hv
      by_contra hc
      rw [not_le] at hc
      have := (mem i (bd i hi)).mp hi ⟨hx, _, el i (bd i hi), hc⟩
      exact absurd (this.1 hd) (not_le.mpr hc)
    · intro i hi hv
      refine zip_places r1 r2 ((mem i hi).mpr fun _ => ⟨fun _ => hv, fun he => ?_⟩)
      rw [hd] at he
      cases he
  · intro hd hx
    constructor
    · intro v hv
      obtain ⟨i, hi, rfl⟩ := row v hv
      by_contra hc
      rw [not_le] at hc
      have := (mem i (bd i hi)).mp hi ⟨⟨_, el i (bd i hi), hc⟩, hx⟩
      exact absurd (this.2 hd) (not_le.mpr hc)
    · intro i hi hv
      refine zip_places r1 r2 ((mem i hi).mpr fun _ => ⟨fun he => ?_, fun _ => hv⟩)
      rw [hd] at he
      cases he

/-- A geometry that turns, with its direction. -/
def turning (d : Dir) : DlpIn := ⟨[104, 100, 102], [10, 11, 12], [-4, -1, 2], [], d, [9, 13], [98, 106], [4, 4], []⟩

example : setRows (turning .ingress) [104, 100, 102] [10, 11, 12] [1, 1, 1] [(2, 0), (2, 0), (0, 2)] =
    .ok ⟨[104, 100], [10, 11], [1, 1], [(2, 0), (2, 0)], [-4, -1], [], []⟩ ∧
    npInterp (turning .ingress).spm (turning .ingress).rhoDot 10 < 0 := by
  decide +kernel

/-- Rows that all have the wrong sign are all kept. -/
theorem C98_wrong_false : ∃ (g : DlpIn) (rho spm pNorm : List ℚ) (iq : List (ℚ × ℚ)) (r : DlpRows), g.dir = .egress ∧ Growing g.spm ∧
    setRows g rho spm pNorm iq = .ok r ∧ r.rho ≠ [] ∧ ∀ v ∈ r.rhoDot, v < 0 := by
  refine ⟨turning .egress, [104, 100], [10, 11], [1, 1], [(2, 0), (2, 0)], ⟨[104, 100], [10, 11], [1, 1], [(2, 0), (2, 0)], [-4, -1], [], []⟩, ?_⟩
  unfold Growing
  decide +kernel

/-- The rows of a chord of both directions end in an error that says nothing about it. -/
theorem C98_both_false : ∃ (g : DlpIn) (rho spm pNorm : List ℚ) (iq : List (ℚ × ℚ)), g.dir = .both ∧ Growing g.spm ∧
    rho.length = spm.length ∧ pNorm.length = spm.length ∧ iq.length = spm.length ∧ setRows g rho spm pNorm iq = .error .unboundLocal := by
  refine ⟨turning .both, [104, 100, 102], [10, 11, 12], [1, 1, 1], [(2, 0), (2, 0), (0, 2)], ?_⟩
  unfold Growing
  decide +kernel

end Verif.Cal
