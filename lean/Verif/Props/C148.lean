import Verif.Props.C147
import Verif.Props.C70
import Verif.Model.PowerNorm

/-!
# C148: the history of an object has every argument that its contents depend on

rss_ringoccs/tools/history.py 201-249 and the places where it is called.
-/
namespace Verif.Fof
open Verif.Rsr Verif.Rsr.Spec Verif.Geo

namespace Spec

/-- Arguments that only matter for messages and files; `NoOp` is not used at all. -/
def quiet : List String := ["verbose", "write_file", "local_path_to_output", "NoOp"]

/-- The history tells the value of the argument. -/
def Told (k : Kind) (n : String) : Prop := ∀ {V : Type} (a b : String → V), history k a = history k b → a n = b n

end Spec
open Spec

theorem told_of {k : Kind} {n : String} (h : n ∈ k.recorded) : Told k n := by
  intro V a b e
  unfold history at e
  have : ∀ l : List String, n ∈ l → (l.map fun n => (n, a n)) = (l.map fun n => (n, b n)) → a n = b n := by
    intro l
    induction l with
    | nil => exact fun hm => absurd hm List.not_mem_nil
    | cons x l ih =>
      intro hm he
      simp only [List.map_cons, List.cons.injEq, Prod.mk.injEq, true_and] at he
      rcases List.mem_cons.mp hm with rfl | hm
      · exact he.1
      · exact ih hm he.2
  exact this _ h e

theorem not_told {k : Kind} {n : String} (h : n ∉ k.recorded) : ¬ Told k n := by
  intro ht
  have := ht (fun _ => false) (fun m => decide (m = n)) (by
    unfold history
    refine List.map_congr_left fun m hm => ?_
    have hne : m ≠ n := fun e => h (e ▸ hm)
    simp [hne])
  simp at this

theorem told_iff {k : Kind} {n : String} : Told k n ↔ n ∈ k.recorded := ⟨fun h => by_contra fun hn => not_told hn h, told_of⟩

/-- The history of a diffraction-limited profile has all of its arguments. -/
theorem C148_dlp : ∀ n ∈ dlpKind.sig.params, n ∉ quiet → Told dlpKind n := by
  simp only [told_iff]
  decide

/-- The histories of the others have all arguments but one each.  (Full claim: all of them; see `C148_missing_false`.) -/
theorem C148_told_partial : (∀ n ∈ rsrKind.sig.params, n ∉ "apply_bias_correction" :: quiet → Told rsrKind n) ∧
    (∀ n ∈ geoKind.sig.params, n ∉ "local_path_to_tables" :: quiet → Told geoKind n) ∧
    (∀ n ∈ calKind.sig.params, n ∉ "fof_lims" :: quiet → Told calKind n) ∧
    ∀ n ∈ uranusKind.sig.params, n ∉ "rev_info" :: quiet → Told uranusKind n := by
  simp only [told_iff]
  decide

/-- One argument each is missing. -/
theorem C148_missing_false : ("apply_bias_correction" ∈ rsrKind.sig.params ∧ ¬ Told rsrKind "apply_bias_correction") ∧
    ("local_path_to_tables" ∈ geoKind.sig.params ∧ ¬ Told geoKind "local_path_to_tables") ∧
    ("fof_lims" ∈ calKind.sig.params ∧ ¬ Told calKind "fof_lims") ∧ ("rev_info" ∈ uranusKind.sig.params ∧ ¬ Told uranusKind "rev_info") := by
  simp only [told_iff]
  decide

/-- The samples depend on the argument that the history of the reader does not have: in each well-formed file with a real part other than -1. -/
theorem C148_bias_false {rnd : ℚ → ℚ} (h : Ieee rnd) (dec : Decimate (Int × Int)) (fl : Flags) (ul : Option Int) {n : Nat} {l : List Block} {rest : List Byte}
    (w : WellFormed n l rest) {rate : Nat} {s : ℚ} (t : Timed l rest n rate s) (hr : rate = 1 ∨ rate = 16 ∨ rate = 50)
    (hsize : (fileOf l rest).length < 2 ^ 53) (hd : requested fl rate = []) {p : Int × Int} (hp : p ∈ samples l) (h1 : p.1 ≠ -1) :
    ∃ r r', construct rnd id dec fl true ul (fileOf l rest) = .ok r ∧ construct rnd id dec fl false ul (fileOf l rest) = .ok r' ∧ r.spm = r'.spm ∧
      r.iq ≠ r'.iq := by
  obtain ⟨dt, hdr, -, -, -, -, -, -, -, -, c⟩ := file_ok h w t hr hsize ul
  refine ⟨{ hdr := hdr, spmRaw := hdr.spm, spm := hdr.spm, iq := (decoded true l).map id },
    { hdr := hdr, spmRaw := hdr.spm, spm := hdr.spm, iq := (decoded false l).map id }, by rw [c id dec fl true, decimation_none fl rate hd],
    by rw [c id dec fl false, decimation_none fl rate hd], rfl, ?_⟩
  show (decoded true l).map id ≠ (decoded false l).map id
  rw [List.map_id, List.map_id, decoded_true w, decoded_false w]
  intro e
  have := List.map_inj_left.mp (e.trans (List.map_id _).symm) p hp
  have e1 := congrArg Prod.fst this
  simp only [id] at e1
  split at e1 <;> omega

example : ∃ r r', construct id id (fun _ l => .ok l) noFlags true none (fileOf (demoBlocks 16) [9]) = .ok r ∧
    construct id id (fun _ l => .ok l) noFlags false none (fileOf (demoBlocks 16) [9]) = .ok r' ∧ r.spm = r'.spm ∧ r.iq ≠ r'.iq :=
  C148_bias_false ieee_id _ _ _ (demo_wellFormed 16 (by decide)) (demo_timed 16 (by decide)) (by decide) (by decide +kernel) (by decide)
    (p := (3, -4)) (by decide +kernel) (by decide)

/-- The range in which the frequency offset is measured depends on the argument that the history of the calibration does not have. -/
theorem C148_limits_false {a b lo hi : ℚ} (h : 100 < b - a) {year doy : ℕ} {spm rho : List ℚ} (hne : (a, b) ≠ (lo, hi))
    (hr : range none year doy spm rho = .ok (lo, hi)) : range (some [a, b]) year doy spm rho ≠ range none year doy spm rho := by
  rw [C147_limits h, hr]
  exact fun e => hne (Except.ok.inj e)

example : range (some [100, 300]) 2005 123 [0, 1, 2, 3] [100000, 100010, 100020, 100030] ≠ range none 2005 123 [0, 1, 2, 3] [100000, 100010, 100020, 100030] :=
  C148_limits_false (lo := 0) (hi := 3) (by norm_num) (by decide) (by decide +kernel)

/-- The order in the history of the calibration is not that of the fit when five or fewer regions are left, whatever is asked for. -/
theorem C148_order_false {spm pc : List ℚ} {gaps : List (ℚ × ℚ)} {k : Nat} {m : Verif.Cal.Masked} (h : Verif.Cal.createMask spm gaps pc k = .ok m)
    (h5 : m.gaps.length ≤ 5) (hk : k ≠ 1) : m.order ≠ k := by
  unfold Verif.Cal.createMask at h
  cases hp : Verif.Cal.pcMax spm pc gaps with
  | error e => rw [hp] at h; cases h
  | ok top =>
    rw [hp] at h
    simp only [bind, Except.bind] at h
    split at h
    · cases h
    · cases h
      simp only at h5 ⊢
      rw [if_pos h5]
      exact fun e => hk e.symm

example : ∃ m, Verif.Cal.createMask [0, 1, 2, 3] [(0, 1), (2, 3)] [1, 1, 1, 1] 3 = .ok m ∧ m.order ≠ 3 := by
  have h : Verif.Cal.createMask [0, 1, 2, 3] [(0, 1), (2, 3)] [1, 1, 1, 1] 3 = .ok ⟨[true, true, true, true], [(0, 1), (2, 3)], 1⟩ := by decide +kernel
  exact ⟨_, h, C148_order_false h (by decide) (by decide)⟩

end Verif.Fof
