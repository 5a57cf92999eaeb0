import Verif.Model.PyNames

/-!
# C193: the functions of the package read names that exist
-/

namespace Verif.Names

namespace Spec

/-- The reads that find nothing: the file, the line of the function and the name. -/
def unbound : List (String × Nat × String) :=
  [("spectrogram.py", 5, "pbar"),
   ("advanced_tools.py", 7, "rss"),
   ("advanced_tools.py", 85, "rss"),
   ("advanced_tools.py", 160, "CSV_tools"),
   ("advanced_tools.py", 160, "rss"),
   ("advanced_tools.py", 160, "special_functions"),
   ("compare.py", 9, "CSV_tools"),
   ("compare.py", 150, "CSV_tools"),
   ("compare.py", 150, "error_check"),
   ("pds3_uranus_geo_series.py", 109, "os"),
   ("pds3_uranus_geo_series.py", 690, "os"),
   ("rss_ringoccs_local_tools.py", 767, "cal_file_dlp_file"),
   ("rss_ringoccs_local_tools.py", 927, "n_resfactors"),
   ("rss_ringoccs_local_tools.py", 927, "nwtype"),
   ("rss_ringoccs_local_tools.py", 2549, "ps"),
   ("rss_ringoccs_local_tools.py", 3252, "CORSS_8001_filepath"),
   ("rss_ringoccs_local_tools.py", 3252, "Lfeatures"),
   ("rss_ringoccs_local_tools.py", 3252, "adjust_phase"),
   ("rss_ringoccs_local_tools.py", 3252, "bands_ALL"),
   ("rss_ringoccs_local_tools.py", 3252, "dict_features"),
   ("rss_ringoccs_local_tools.py", 3252, "dsns_ALL"),
   ("rss_ringoccs_local_tools.py", 3252, "dsns_OMIT_63"),
   ("rss_ringoccs_local_tools.py", 3252, "figsize"),
   ("rss_ringoccs_local_tools.py", 3252, "fontsize_legend"),
   ("rss_ringoccs_local_tools.py", 3252, "merge_tau_files"),
   ("rss_ringoccs_local_tools.py", 3252, "plot_individual"),
   ("rss_ringoccs_local_tools.py", 3252, "plot_phase"),
   ("rss_ringoccs_local_tools.py", 3252, "program"),
   ("rss_ringoccs_local_tools.py", 3252, "res_factor"),
   ("rss_ringoccs_local_tools.py", 3252, "runs"),
   ("rss_ringoccs_local_tools.py", 3252, "search_string"),
   ("rss_ringoccs_local_tools.py", 3252, "wtypes"),
   ("rss_ringoccs_local_tools.py", 3660, "kernels"),
   ("satellite_tools.py", 114, "cos"),
   ("spm_to_et.py", 15, "os")]

/-- The last part of a path. -/
def base (f : String) : List Char := (f.toList.reverse.takeWhile (· ≠ '/')).reverse

end Spec

/-- Whether the table of unbound reads has this one. -/
def inTable (m : Mod) (f : Fn) (x : String) : Bool :=
  Spec.unbound.any fun u => u.1.toList == Spec.base m.file && u.2.1 == f.line && u.2.2 == x

theorem checked : modules.all (fun m => m.fns.all fun f => f.reads.all fun x =>
    decide (find m x = .nameError) == inTable m f x) = true := by decide +kernel

theorem found_iff {m : Mod} (hm : m ∈ modules) {f : Fn} (hf : f ∈ m.fns) {x : String}
    (hx : x ∈ f.reads) : find m x = .nameError ↔ ∃ u ∈ Spec.unbound,
      u.1.toList = Spec.base m.file ∧ u.2.1 = f.line ∧ u.2.2 = x := by
  have h := checked
  rw [List.all_eq_true] at h
  have h := h m hm
  rw [List.all_eq_true] at h
  have h := h f hf
  rw [List.all_eq_true] at h
  have h := h x hx
  rw [beq_iff_eq] at h
  rw [← decide_eq_true_iff (p := find m x = .nameError), h, inTable, List.any_eq_true]
  simp only [Bool.and_eq_true, beq_iff_eq, and_assoc]

/-- On no path of any function of the package is a name missing, apart from the paths that
come to one of the reads in the table. -/
theorem C193_names_partial (m : Mod) (hm : m ∈ modules) (f : Fn) (hf : f ∈ m.fns)
    (p : List String) (hp : Path f p)
    (hu : ∀ u ∈ Spec.unbound, u.1.toList = Spec.base m.file → u.2.1 = f.line → u.2.2 ∉ p) :
    runReads m p = none := by
  induction p with
  | nil => rfl
  | cons x p ih =>
    have hx : ¬ find m x = .nameError := by
      rw [found_iff hm hf (hp x (by simp))]
      rintro ⟨u, h1, h2, h3, h4⟩
      exact hu u h1 h2 h3 (by simp [h4])
    rw [runReads, if_neg hx]
    exact ih (fun y hy => hp y (by simp [hy]))
      (fun u h1 h2 h3 h4 => hu u h1 h2 h3 (by simp [h4]))

/-- Most functions have no such read: in 361 of the 376 functions every path finds its
names. -/
theorem C193_functions :
    (modules.map fun m => m.fns.length).sum = 376 ∧
    (modules.map fun m => (m.fns.filter fun f => f.reads.any (inTable m f)).length).sum = 15 := by
  decide +kernel

example : ∃ m ∈ modules, ∃ f ∈ m.fns, f.name = "Calibration.__init__" ∧
    ∀ u ∈ Spec.unbound, ¬ u.1.toList = Spec.base m.file := by decide +kernel

/-- Every read of the table is in a function, and a path that comes to it raises
`NameError` there. -/
theorem C193_names_false (u : String × Nat × String) (hu : u ∈ Spec.unbound) :
    ∃ m ∈ modules, ∃ f ∈ m.fns, u.1.toList = Spec.base m.file ∧ u.2.1 = f.line ∧
      u.2.2 ∈ f.reads ∧
      ∀ p q : List String, (∀ x ∈ p, find m x ≠ .nameError) →
        runReads m (p ++ u.2.2 :: q) = some u.2.2 := by
  have h : Spec.unbound.all (fun u => modules.any fun m => u.1.toList == Spec.base m.file &&
      m.fns.any fun f => u.2.1 == f.line && f.reads.contains u.2.2) = true := by
    decide +kernel
  rw [List.all_eq_true] at h
  have h := h u hu
  simp only [List.any_eq_true, Bool.and_eq_true, beq_iff_eq, List.contains_iff_mem] at h
  obtain ⟨m, hm, h1, f, hf, h2, h3⟩ := h
  refine ⟨m, hm, f, hf, h1, h2, h3, ?_⟩
  have hn : find m u.2.2 = .nameError := (found_iff hm hf h3).2 ⟨u, hu, h1, h2, rfl⟩
  intro p q hp
  induction p with
  | nil => rw [List.nil_append, runReads, if_pos hn]
  | cons x p ih =>
    rw [List.cons_append, runReads, if_neg (hp x (by simp))]
    exact ih fun y hy => hp y (by simp [hy])

end Verif.Names
