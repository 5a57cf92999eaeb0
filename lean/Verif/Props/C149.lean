import Verif.Model.ErrText
import Mathlib.Data.List.Infix

/-!
# C149: error messages fit their buffers, are freed when they were allocated, and name the function

The tables of Model/ErrText.
-/
namespace Verif.Msg

namespace Spec

/-- A string and its terminating zero are inside a buffer. -/
def Fits (cap : Nat) (s : List Char) : Prop := s.length < cap

/-- The text has the name near its beginning at the end of a line, after a tabulator or a space. -/
def Names (text name : List Char) : Prop := ('\t' :: name ++ ['\n']) <:+: text.take 120 ∨ (' ' :: name ++ ['\n']) <:+: text.take 120

instance (text name : List Char) : Decidable (Names text name) := by unfold Names; infer_instance

end Spec
open Spec

/-- Messages of fewer than 843 characters fit at each place. -/
theorem C149_room {s : Site} (hs : s ∈ sites) {m : List Char} (hm : m.length < 843) :
    sprintf s.cap s.pre m = .text (s.pre ++ m) ∧ Fits s.cap (s.pre ++ m) := by
  have h : ∀ s ∈ sites, s.cap = 1024 ∧ s.pre.length ≤ 181 := by decide +kernel
  obtain ⟨h1, h2⟩ := h s hs
  refine ⟨if_pos (by omega), ?_⟩
  unfold Fits
  rw [List.length_append]
  omega

/-- The messages of the tables that are put into other messages are that short. -/
theorem C149_short : ∀ p ∈ puts, p.kind ∈ [.geo, .dlp, .cal, .tau, .udlp] → ∀ m ∈ p.texts, m.length < 180 := by
  decide +kernel

/-- Whatever fails in reading a table, the message of the collection is complete, ends with the message of the table, and stays in its buffer. -/
theorem C149_fits {s : Site} (hs : s ∈ sites) {p : Put} (hp : p ∈ puts) (hk : p.kind = s.frm) {m : List Char} (hm : m ∈ p.texts) :
    ∃ t, sprintf s.cap s.pre m = .text t ∧ Fits s.cap t ∧ m <:+ t := by
  have h : ∀ s ∈ sites, s.frm ∈ [Kind.geo, .dlp, .cal, .tau, .udlp] := by decide +kernel
  have := C149_short p hp (hk ▸ h s hs) m hm
  obtain ⟨h1, h2⟩ := C149_room hs (m := m) (by omega)
  exact ⟨_, h1, h2, List.suffix_append _ _⟩

/-- An error of the memory allocation while a geometry file is read. -/
example : ∃ t, sprintf 1024 (chars!"\nError Encountered: rss_ringoccs\n\trssringoccs_CSVData_Extract_Geo\n\nrssringoccs_GeoCSV_Extract returned with error.\nrssringoccs_GeoCSV_Extract set the following message:\n\n")
    (chars!"Error Encountered: rss_ringoccs\n\trssringoccs_GeoCSV_Malloc\n\nMalloc failed to allocate memory for rx_km_vals.\n") = .text t ∧
    (chars!"rx_km_vals.\n") <:+ t := by
  refine ⟨_, (C149_room (s := sites[5]) (List.getElem_mem _) (by decide)).1, by decide +kernel⟩

/-- The names of the attributes fit into the buffers of 512 characters. -/
theorem C149_attributes : ∀ t ∈ attrTexts, ∀ a ∈ attrs, Fits 512 (t.1 ++ a ++ t.2) := by unfold Fits; decide +kernel

/-- A buffer of 256 characters would not be enough for the collections. -/
example : sprintf 256 sites[5].pre (chars!"Error Encountered: rss_ringoccs\n\trssringoccs_GeoCSV_Malloc\n\nMalloc failed to allocate memory for rx_km_vals.\n") =
    .overflow := by decide +kernel

/-- What is freed was allocated. -/
theorem C149_free : (∀ p ∈ puts, freed p.kind = true → p.heap = true) ∧ ∀ s ∈ sites, freed s.kind = true := by decide +kernel

/-- What was allocated is freed, with one exception.  (Full claim: without exception; see `C149_leak_false`.) -/
theorem C149_leak_partial : ∀ p ∈ puts, ¬ (p.file = "src/tau/rss_ringoccs_tau_resize_half_window.c" ∧ p.line = 63) → p.heap = true → freed p.kind = true := by
  decide +kernel

/-- The message that a window does not fit is allocated and never freed. -/
theorem C149_leak_false : ∃ p ∈ puts, p.heap = true ∧ freed p.kind = false := by decide +kernel

/-- The files in which a message has the name of another function. -/
def misnamed : List String := ["rss_ringoccs/crssringoccs/diffraction_correction/crssringoccs_get_py_perturbation.c",
  "rss_ringoccs/crssringoccs/diffraction_correction/crssringoccs_get_py_range.c",
  "rss_ringoccs/crssringoccs/get_merged_csv_data/crssringoccs_get_merged_csv_data_steal.c",
  "rss_ringoccs/crssringoccs/get_uranus_data/crssringoccs_get_uranus_data_steal.c",
  "src/csv_tools/rss_ringoccs_tau_csv_extract.c",
  "src/csv_tools/rss_ringoccs_uranus_csv_data_extract_dlp.c",
  "src/fresnel_transform/rss_ringoccs_tau_select_newton_interp_transform.c",
  "src/model/rss_ringoccs_tau_model_left_straightedge.c",
  "src/model/rss_ringoccs_tau_model_sine_wave.c",
  "src/reconstruction/rss_ringoccs_diffraction_correction.c",
  "src/reconstruction/rss_ringoccs_diffraction_correction_legendre.c",
  "src/reconstruction/rss_ringoccs_diffraction_correction_polynomial_newton.c",
  "src/tau/rss_ringoccs_tau_check_periapse.c",
  "src/tau/rss_ringoccs_tau_resize_half_window.c",
  "src/tau/rss_ringoccs_tau_set_range_from_string.c",
  "src/tau/rss_ringoccs_tau_set_window_type.c"]

/-- The messages of the library name their function, in the other files.  (Full claim: in all; see `C149_named_false`.) -/
theorem C149_named_partial : ∀ p ∈ puts, p.kind ≠ .obj → p.file ∉ misnamed → ∀ t ∈ p.texts, Names t p.func := by decide +kernel

/-- In each of these files a message does not. -/
theorem C149_named_false : ∀ f ∈ misnamed, (∃ p ∈ puts, p.file = f ∧ ∃ t ∈ p.texts, ¬ Names t p.func) := by decide +kernel

/-- The same for the messages that are put together. -/
theorem C149_sites : ∀ s ∈ sites, ¬ (s.file = "src/csv_tools/rss_ringoccs_uranus_csv_data_extract_dlp.c" ∧ s.line = 87) → Names s.pre s.func := by decide +kernel

end Verif.Msg
