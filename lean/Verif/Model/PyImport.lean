import Verif.Model.Rsr

/-!
# The import of the Python package

What happens when `rss_ringoccs` or one of its modules is imported: the modules are run
statement by statement, each import of another module runs that one first, and a module
that is being run already is used as far as it has got.
-/

namespace Verif.PyImp

/-- What a name of a module is bound to: one of the modules of the package, by its place in
`table`, or something else. -/
inductive Val where
  | obj
  | mod (i : Nat)
deriving DecidableEq, Repr

/-- The statements at the top level of a module that matter for imports.  `ext` asks for a
module, or a name of a module, outside the package; `defn` binds a name by `def` or `class`;
`imp` is `import rss_ringoccs as x`; `frm m x y` is `from m import x as y`; `star` is
`from m import *`; `gone` is an import from a module of the package that has no file.
Simplification: other statements are left out (assignments of constants and paths), and of
the definitions only those that some import or some chain `rss.a.b` asks for. -/
inductive Stmt where
  | ext (what : String)
  | defn (x : String)
  | imp (m : Nat) (x : String)
  | frm (m : Nat) (x y : String)
  | star (m : Nat)
  | gone (what : String)
deriving DecidableEq, Repr

/-- A module: its name, the last part of its name, the package it belongs to and its
statements. -/
structure Module where
  name : String
  short : String
  parent : Option Nat
  body : List Stmt

/-- How an import can fail. -/
inductive Err where
  /-- `ModuleNotFoundError` or `ImportError` for something outside the package -/
  | outside (what : String)
  /-- `ModuleNotFoundError` for a module of the package -/
  | noModule (what : String)
  /-- `ImportError`: the module does not have the name -/
  | noName (m : Nat) (x : String)
  /-- the model has run out of steps (does not happen, by the theorems) -/
  | steps
deriving DecidableEq, Repr

/-- What the interpreter holds: the modules in `sys.modules` with the names they have so
far (latest first) and what has been asked for outside the package. -/
structure St where
  mods : List (Nat × List (String × Val)) := []
  seen : List String := []
deriving DecidableEq, Repr

def St.names (s : St) (m : Nat) : List (String × Val) := (s.mods.lookup m).getD []

def St.has (s : St) (m : Nat) : Bool := (s.mods.lookup m).isSome

/-- Bind `x` in module `m`. -/
def St.bind (s : St) (m : Nat) (x : String) (v : Val) : St :=
  { s with mods := s.mods.map fun p => if p.1 = m then (p.1, (x, v) :: p.2) else p }

/-- The submodule `x` of package `m`, if there is a file for it. -/
def sub (t : List Module) (m : Nat) (x : String) : Option Nat :=
  t.findIdx? fun d => decide (d.parent = some m) && d.short == x

/-- One statement of module `cur`, with `ld` for the import of another module.
`from m import x` takes the attribute `x` of `m`; if there is none the submodule `x` is
imported (and taken from `sys.modules` when it is still being run, as Python does since
version 3.5; `pyproject.toml` asks for 3.7). -/
def step (t : List Module) (av : String → Bool) (ld : Nat → St → Except Err St)
    (cur : Nat) (st : Stmt) (s : St) : Except Err St :=
  match st with
  | .ext e => if av e then .ok { s with seen := s.seen ++ [e] } else .error (.outside e)
  | .defn x => .ok (s.bind cur x .obj)
  | .imp m x => (ld m s).map fun s => s.bind cur x (.mod m)
  | .frm m x y =>
    (ld m s).bind fun s =>
      match (s.names m).lookup x with
      | some v => .ok (s.bind cur y v)
      | none =>
        match sub t m x with
        | some k => (ld k s).map fun s => s.bind cur y (.mod k)
        | none => .error (.noName m x)
  | .star m =>
    (ld m s).map fun s =>
      (s.names m).foldr (fun p s => s.bind cur p.1 p.2) s
  | .gone e => .error (.noModule e)

/-- The statements of a module, one after another. -/
def steps (t : List Module) (av : String → Bool) (ld : Nat → St → Except Err St)
    (cur : Nat) : List Stmt → St → Except Err St
  | [], s => .ok s
  | st :: sts, s => (step t av ld cur st s).bind (steps t av ld cur sts)

/-- After a submodule has been run it is made an attribute of its package. -/
def attach (d : Module) (m : Nat) (s : St) : St :=
  match d.parent with
  | none => s
  | some p => s.bind p d.short (.mod m)

/-- The package of a module is imported before it. -/
def above (ld : Nat → St → Except Err St) (d : Module) (s : St) : Except Err St :=
  match d.parent with
  | none => .ok s
  | some p => ld p s

/-- Run the module `m`, unless it is in `sys.modules`. -/
def runMod (t : List Module) (av : String → Bool) (ld : Nat → St → Except Err St)
    (m : Nat) (d : Module) (s : St) : Except Err St :=
  if s.has m then .ok s
  else (steps t av ld m d.body { s with mods := (m, []) :: s.mods }).map (attach d m)

/-- The import of module `m` by a program that holds `s`; `fuel` bounds the depth to which
imports may be nested.  `av` says what there is outside the package. -/
def load (t : List Module) (av : String → Bool) : Nat → Nat → St → Except Err St
  | 0, _, _ => .error .steps
  | fuel + 1, m, s =>
    if s.has m then .ok s
    else match t[m]? with
      | none => .error (.noModule "")
      | some d => (above (load t av fuel) d s).bind (runMod t av (load t av fuel) m d)

/-- What `rss.a.b` gives in a program that holds `s`; `none` is an `AttributeError`. -/
def chain (s : St) : Val → List String → Option Val
  | v, [] => some v
  | .obj, _ :: _ => none
  | .mod m, x :: xs => (s.names m).lookup x |>.bind fun v => chain s v xs

/-- The modules of the package with their imports, in the order of the files:
* 0: `rss_ringoccs/__init__.py` lines 93-98
* 1: `rss_ringoccs/calibration/__init__.py` lines 18-25
* 2: `rss_ringoccs/occgeo/__init__.py` lines 8-10
* 3: `rss_ringoccs/rsr_reader/__init__.py` lines 12-13
* 4: `rss_ringoccs/scatter/__init__.py` lines 8-8
* 5: `rss_ringoccs/tools/__init__.py` lines 9-17
* 6: `rss_ringoccs/calibration/calc_f_sky_recon.py` lines 19-56
* 7: `rss_ringoccs/calibration/calc_freq_offset.py` lines 11-13
* 8: `rss_ringoccs/calibration/calc_tau_thresh.py` lines 27-30
* 9: `rss_ringoccs/calibration/calibration_class.py` lines 16-27
* 10: `rss_ringoccs/calibration/dlp_class.py` lines 15-24
* 11: `rss_ringoccs/calibration/freq_offset_fit.py` lines 9-27
* 12: `rss_ringoccs/calibration/power_normalization.py` lines 14-24
* 13: `rss_ringoccs/calibration/resample_IQ.py` lines 9-94
* 14: `rss_ringoccs/occgeo/calc_occ_geometry.py` lines 15-18
* 15: `rss_ringoccs/occgeo/occgeo.py` lines 23-36
* 16: `rss_ringoccs/occgeo/occgeo_uranus.py` lines 25-39
* 17: `rss_ringoccs/rsr_reader/rsr_header.py` lines 13-118
* 18: `rss_ringoccs/rsr_reader/rsr_reader.py` lines 15-26
* 19: `rss_ringoccs/rsr_reader/vgr_uranus_reader.py` lines 7-10
* 20: `rss_ringoccs/scatter/spectro_reader.py` lines 1-1
* 21: `rss_ringoccs/scatter/spectrogram.py` lines 1-129
* 22: `rss_ringoccs/tools/advanced_tools.py` lines 1-6
* 23: `rss_ringoccs/tools/compare.py` lines 1-7
* 24: `rss_ringoccs/tools/create_summary_doc.py` lines 15-932
* 25: `rss_ringoccs/tools/create_summary_doc_v5.py` lines 15-1438
* 26: `rss_ringoccs/tools/dtau_partsize.py` lines 32-35
* 27: `rss_ringoccs/tools/error_check.py` lines 1-1
* 28: `rss_ringoccs/tools/et_to_spm.py` lines 11-14
* 29: `rss_ringoccs/tools/history.py` lines 14-201
* 30: `rss_ringoccs/tools/pds3_cal_series.py` lines 20-474
* 31: `rss_ringoccs/tools/pds3_dlp_series.py` lines 15-729
* 32: `rss_ringoccs/tools/pds3_geo_series.py` lines 15-690
* 33: `rss_ringoccs/tools/pds3_tau_series.py` lines 12-1044
* 34: `rss_ringoccs/tools/pds3_uranus_geo_series.py` lines 15-690
* 35: `rss_ringoccs/tools/pds3_write_series_v2.py` lines 9-11
* 36: `rss_ringoccs/tools/ring_fit.py` lines 13-19
* 37: `rss_ringoccs/tools/rss_ringoccs_local_tools.py` lines 92-168
* 38: `rss_ringoccs/tools/satellite_tools.py` lines 1-18
* 39: `rss_ringoccs/tools/spm_to_et.py` lines 11-15
* 40: `rss_ringoccs/tools/sys_tools.py` lines 13-94
* 41: `rss_ringoccs/tools/write_output_files.py` lines 16-93
* 42: `rss_ringoccs/tools/write_uranus_output_files.py` lines 18-54
* 43: `rss_ringoccs/tools/write_vgr1_saturn_output_files.py` lines 18-56
The names that `from crssringoccs import *` binds are those of `__all__` in
`rss_ringoccs/crssringoccs/crssringoccs.c` lines 119-125. -/
def table : List Module := [
  ⟨"rss_ringoccs", "rss_ringoccs", none,
     [.ext "crssringoccs", .defn "DiffractionCorrection", .defn "ExtractCSVData",
      .defn "GetUranusData", .defn "GetMergedCSVData", .frm 0 "tools" "tools",
      .frm 0 "rsr_reader" "rsr_reader", .frm 0 "occgeo" "occgeo",
      .frm 0 "calibration" "calibration", .frm 0 "scatter" "scatter"]⟩,
  ⟨"rss_ringoccs.calibration", "calibration", some 0,
     [.frm 7 "calc_freq_offset" "calc_freq_offset",
      .frm 6 "calc_f_sky_recon" "calc_f_sky_recon",
      .frm 8 "calc_tau_thresh" "calc_tau_thresh", .frm 9 "Calibration" "Calibration",
      .frm 10 "DiffractionLimitedProfile" "DiffractionLimitedProfile",
      .frm 11 "FreqOffsetFit" "FreqOffsetFit", .frm 12 "Normalization" "Normalization",
      .frm 13 "pre_resample" "pre_resample"]⟩,
  ⟨"rss_ringoccs.occgeo", "occgeo", some 0,
     [.frm 15 "Geometry" "Geometry", .frm 2 "calc_occ_geometry" "calc_occ_geometry"]⟩,
  ⟨"rss_ringoccs.rsr_reader", "rsr_reader", some 0,
     [.frm 18 "RSRReader" "RSRReader", .frm 17 "rsr_header" "rsr_header"]⟩,
  ⟨"rss_ringoccs.scatter", "scatter", some 0,
     [.frm 21 "Scatter" "Scatter"]⟩,
  ⟨"rss_ringoccs.tools", "tools", some 0,
     [.frm 22 "CompareTau" "CompareTau", .frm 39 "spm_to_et" "spm_to_et",
      .frm 28 "et_to_spm" "et_to_spm", .frm 29 "write_history_dict" "write_history_dict",
      .frm 29 "date_to_rev" "date_to_rev", .frm 29 "get_rev_info" "get_rev_info",
      .frm 24 "plot_summary_doc_v4" "plot_summary_doc_v4", .star 25,
      .frm 36 "ring_fit" "ring_fit"]⟩,
  ⟨"rss_ringoccs.calibration.calc_f_sky_recon", "calc_f_sky_recon", some 1,
     [.ext "numpy", .ext "spiceypy.spiceypy", .frm 39 "spm_to_et" "spm_to_et",
      .defn "calc_f_sky_recon"]⟩,
  ⟨"rss_ringoccs.calibration.calc_freq_offset", "calc_freq_offset", some 1,
     [.ext "numpy", .defn "calc_freq_offset"]⟩,
  ⟨"rss_ringoccs.calibration.calc_tau_thresh", "calc_tau_thresh", some 1,
     [.ext "numpy", .ext "scipy.signal.spectrogram", .defn "calc_tau_thresh"]⟩,
  ⟨"rss_ringoccs.calibration.calibration_class", "calibration_class", some 1,
     [.ext "numpy", .ext "scipy.interpolate.splrep", .ext "scipy.interpolate.splev",
      .ext "scipy.integrate.simpson", .ext "sys",
      .frm 29 "write_history_dict" "write_history_dict",
      .frm 41 "write_output_files" "write_output_files",
      .frm 11 "FreqOffsetFit" "FreqOffsetFit", .frm 12 "Normalization" "Normalization",
      .frm 2 "Geometry" "Geometry", .defn "Calibration"]⟩,
  ⟨"rss_ringoccs.calibration.dlp_class", "dlp_class", some 1,
     [.ext "copy", .ext "numpy", .ext "scipy.interpolate.splrep",
      .ext "scipy.interpolate.splev", .ext "scipy.interpolate.interp1d",
      .frm 18 "RSRReader" "RSRReader", .frm 13 "resample_IQ" "resample_IQ",
      .frm 8 "calc_tau_thresh" "calc_tau_thresh",
      .frm 29 "write_history_dict" "write_history_dict",
      .frm 41 "write_output_files" "write_output_files", .defn "DiffractionLimitedProfile"]⟩,
  ⟨"rss_ringoccs.calibration.freq_offset_fit", "freq_offset_fit", some 1,
     [.ext "numpy", .ext "matplotlib.pyplot", .ext "scipy.interpolate.splrep",
      .ext "scipy.interpolate.splev", .ext "scipy.signal.argrelmax", .ext "sys",
      .frm 6 "calc_f_sky_recon" "calc_f_sky_recon",
      .frm 7 "calc_freq_offset" "calc_freq_offset",
      .frm 41 "construct_filepath" "construct_filepath", .ext "os", .ext "sys",
      .imp 0 "rss", .defn "FreqOffsetFit"]⟩,
  ⟨"rss_ringoccs.calibration.power_normalization", "power_normalization", some 1,
     [.ext "numpy", .ext "scipy.signal", .ext "scipy.interpolate.splrep",
      .ext "scipy.interpolate.splev", .frm 41 "construct_filepath" "construct_filepath",
      .ext "matplotlib.pyplot", .ext "matplotlib.gridspec.GridSpec", .defn "Normalization"]⟩,
  ⟨"rss_ringoccs.calibration.resample_IQ", "resample_IQ", some 1,
     [.ext "numpy", .ext "scipy.signal", .ext "scipy.interpolate.interp1d",
      .defn "pre_resample", .defn "resample_IQ"]⟩,
  ⟨"rss_ringoccs.occgeo.calc_occ_geometry", "calc_occ_geometry", some 2,
     [.ext "spiceypy", .ext "numpy", .ext "os", .ext "scipy.interpolate.interp1d"]⟩,
  ⟨"rss_ringoccs.occgeo.occgeo", "occgeo", some 2,
     [.frm 39 "spm_to_et" "spm_to_et", .frm 28 "et_to_spm" "et_to_spm",
      .frm 41 "write_output_files" "write_output_files",
      .frm 29 "write_history_dict" "write_history_dict", .frm 2 "calc_occ_geometry" "cog",
      .ext "scipy.interpolate.splrep", .ext "scipy.interpolate.splev", .ext "spiceypy",
      .ext "numpy", .defn "Geometry"]⟩,
  ⟨"rss_ringoccs.occgeo.occgeo_uranus", "occgeo_uranus", some 2,
     [.frm 39 "spm_to_et" "spm_to_et", .frm 28 "et_to_spm" "et_to_spm",
      .frm 42 "write_uranus_output_files" "write_uranus_output_files",
      .frm 29 "write_history_dict" "write_history_dict", .frm 2 "calc_occ_geometry" "cog",
      .ext "scipy.interpolate.splrep", .ext "scipy.interpolate.splev", .ext "spiceypy",
      .ext "numpy", .ext "sys", .defn "Uranus_Geometry"]⟩,
  ⟨"rss_ringoccs.rsr_reader.rsr_header", "rsr_header", some 3,
     [.ext "numpy", .ext "os", .ext "struct", .defn "rsr_header"]⟩,
  ⟨"rss_ringoccs.rsr_reader.rsr_reader", "rsr_reader", some 3,
     [.ext "numpy", .ext "os", .ext "scipy.signal.decimate", .ext "struct", .ext "sys",
      .ext "time", .frm 29 "get_rev_info" "get_rev_info",
      .frm 29 "write_history_dict" "write_history_dict", .defn "RSRReader"]⟩,
  ⟨"rss_ringoccs.rsr_reader.vgr_uranus_reader", "vgr_uranus_reader", some 3,
     [.ext "numpy", .ext "scipy.fftpack.hilbert", .ext "os", .ext "sys"]⟩,
  ⟨"rss_ringoccs.scatter.spectro_reader", "spectro_reader", some 4,
     [.ext "numpy"]⟩,
  ⟨"rss_ringoccs.scatter.spectrogram", "spectrogram", some 4,
     [.ext "numpy", .ext "scipy.signal.spectrogram",
      .frm 41 "construct_filepath" "construct_filepath", .defn "Scatter"]⟩,
  ⟨"rss_ringoccs.tools.advanced_tools", "advanced_tools", some 5,
     [.ext "numpy", .imp 0 "rss_ringoccs", .frm 5 "error_check" "error_check",
      .frm 5 "history" "history", .defn "CompareTau"]⟩,
  ⟨"rss_ringoccs.tools.compare", "compare", some 5,
     [.frm 0 "diffrec" "diffrec", .gone "rss_ringoccs.tools.CSV_tools", .ext "numpy",
      .ext "matplotlib.backends.backend_pdf.PdfPages", .ext "matplotlib.pyplot",
      .ext "matplotlib.gridspec", .ext "scipy.interpolate"]⟩,
  ⟨"rss_ringoccs.tools.create_summary_doc", "create_summary_doc", some 5,
     [.ext "warnings", .ext "numpy", .ext "matplotlib", .ext "os",
      .ext "matplotlib.pyplot", .ext "matplotlib.backends.backend_pdf.PdfPages",
      .ext "scipy.signal.savgol_filter", .ext "time", .ext "spiceypy",
      .frm 40 "latex_summary_doc" "latex_summary_doc",
      .frm 41 "construct_filepath" "construct_filepath", .defn "plot_summary_doc_v4"]⟩,
  ⟨"rss_ringoccs.tools.create_summary_doc_v5", "create_summary_doc_v5", some 5,
     [.ext "warnings", .ext "numpy", .ext "matplotlib", .ext "os",
      .ext "matplotlib.pyplot", .ext "matplotlib.backends.backend_pdf.PdfPages",
      .ext "scipy.signal.savgol_filter", .ext "scipy.io.readsav", .ext "time",
      .ext "spiceypy", .frm 40 "latex_summary_doc" "latex_summary_doc",
      .frm 41 "construct_filepath" "construct_filepath",
      .frm 33 "get_rev_info_from_dlp" "get_rev_info_from_dlp", .defn "plot_summary_doc_v5"]⟩,
  ⟨"rss_ringoccs.tools.dtau_partsize", "dtau_partsize", some 5,
     [.ext "numpy", .ext "os", .ext "scipy.integrate.simpson", .ext "PyMieScatt"]⟩,
  ⟨"rss_ringoccs.tools.error_check", "error_check", some 5,
     [.ext "numpy"]⟩,
  ⟨"rss_ringoccs.tools.et_to_spm", "et_to_spm", some 5,
     [.ext "numpy", .ext "spiceypy", .defn "et_to_spm"]⟩,
  ⟨"rss_ringoccs.tools.history", "history", some 5,
     [.ext "sys", .ext "time", .ext "platform", .ext "os", .ext "numpy",
      .defn "date_to_rev", .defn "get_rev_info", .defn "write_history_dict"]⟩,
  ⟨"rss_ringoccs.tools.pds3_cal_series", "pds3_cal_series", some 5,
     [.frm 5 "pds3_write_series_v2" "pds3", .ext "time", .ext "os", .defn "write_cal_series"]⟩,
  ⟨"rss_ringoccs.tools.pds3_dlp_series", "pds3_dlp_series", some 5,
     [.ext "numpy", .ext "os", .ext "time", .frm 5 "pds3_write_series_v2" "pds3",
      .defn "write_dlp_series"]⟩,
  ⟨"rss_ringoccs.tools.pds3_geo_series", "pds3_geo_series", some 5,
     [.ext "time", .frm 5 "pds3_write_series_v2" "pds3", .ext "numpy", .ext "os",
      .defn "write_geo_series"]⟩,
  ⟨"rss_ringoccs.tools.pds3_tau_series", "pds3_tau_series", some 5,
     [.ext "numpy", .ext "time", .ext "os", .ext "platform", .ext "shutil",
      .frm 5 "pds3_write_series_v2" "pds3",
      .frm 5 "write_output_files" "write_output_files", .defn "write_tau_series",
      .defn "get_rev_info_from_dlp", .defn "set_tau_history_from_csv",
      .defn "add_psitype_to_taufiles"]⟩,
  ⟨"rss_ringoccs.tools.pds3_uranus_geo_series", "pds3_uranus_geo_series", some 5,
     [.ext "time", .frm 5 "pds3_write_series_v2" "pds3", .ext "numpy",
      .defn "write_uranus_geo_series"]⟩,
  ⟨"rss_ringoccs.tools.pds3_write_series_v2", "pds3_write_series_v2", some 5,
     [.ext "numpy", .ext "os", .ext "time"]⟩,
  ⟨"rss_ringoccs.tools.ring_fit", "ring_fit", some 5,
     [.ext "numpy", .ext "os", .ext "sys", .ext "scipy.optimize.curve_fit",
      .ext "scipy.special.wofz", .ext "spiceypy.furnsh", .ext "spiceypy.utc2et",
      .ext "spiceypy.et2utc", .defn "ring_fit"]⟩,
  ⟨"rss_ringoccs.tools.rss_ringoccs_local_tools", "rss_ringoccs_local_tools", some 5,
     [.ext "rss_ringoccs_global_paths", .imp 0 "rss_ringoccs", .imp 0 "rss",
      .frm 5 "write_output_files" "write_output_files",
      .frm 33 "get_rev_info_from_dlp" "get_rev_info_from_dlp",
      .frm 33 "set_tau_history_from_csv" "set_tau_history_from_csv",
      .frm 33 "add_psitype_to_taufiles" "add_psitype_to_taufiles",
      .ext "concurrent.futures.ProcessPoolExecutor",
      .ext "concurrent.futures.as_completed", .ext "datetime", .ext "fcntl", .ext "glob",
      .ext "math", .ext "matplotlib.patches", .ext "matplotlib.pyplot",
      .ext "multiprocessing.Process", .ext "multiprocessing.cpu_count", .ext "numpy",
      .ext "os", .ext "platform", .ext "re", .ext "scipy.signal", .ext "scipy.interpolate",
      .ext "scipy.integrate.simpson", .ext "shutil", .ext "spiceypy", .ext "subprocess",
      .ext "sys", .ext "time", .ext "traceback", .ext "types", .ext "wcmatch.glob"]⟩,
  ⟨"rss_ringoccs.tools.satellite_tools", "satellite_tools", some 5,
     [.ext "rss_ringoccs_global_paths", .ext "scipy.interpolate", .ext "numpy",
      .ext "spiceypy"]⟩,
  ⟨"rss_ringoccs.tools.spm_to_et", "spm_to_et", some 5,
     [.ext "numpy", .ext "spiceypy", .ext "sys", .defn "spm_to_et"]⟩,
  ⟨"rss_ringoccs.tools.sys_tools", "sys_tools", some 5,
     [.ext "subprocess", .ext "os", .ext "time", .frm 5 "error_check" "error_check",
      .defn "latex_summary_doc"]⟩,
  ⟨"rss_ringoccs.tools.write_output_files", "write_output_files", some 5,
     [.ext "sys", .frm 32 "write_geo_series" "write_geo_series",
      .frm 30 "write_cal_series" "write_cal_series",
      .frm 31 "write_dlp_series" "write_dlp_series",
      .frm 33 "write_tau_series" "write_tau_series", .ext "time", .ext "time.strftime",
      .imp 0 "rss", .ext "os", .defn "write_output_files", .defn "construct_filepath"]⟩,
  ⟨"rss_ringoccs.tools.write_uranus_output_files", "write_uranus_output_files", some 5,
     [.ext "sys", .ext "os", .ext "time.strftime", .imp 0 "rss",
      .frm 34 "write_uranus_geo_series" "write_uranus_geo_series",
      .frm 33 "write_tau_series" "write_tau_series", .defn "write_uranus_output_files",
      .defn "construct_filepath"]⟩,
  ⟨"rss_ringoccs.tools.write_vgr1_saturn_output_files", "write_vgr1_saturn_output_files", some 5,
     [.ext "sys", .frm 32 "write_geo_series" "write_geo_series",
      .frm 33 "write_tau_series" "write_tau_series", .ext "time.strftime", .imp 0 "rss",
      .ext "os", .defn "construct_filepath"]⟩
]

/-- Deep enough for every import of the package. -/
def depth : Nat := 50

/-- A place where a program reads `rss.a.b` or `rss_ringoccs.a.b`: the file, the lines and
the parts after the package.  For `DiffractionLimitedProfile.create_dlps` the chain is kept
up to the class. -/
structure Read where
  file : String
  lines : List Nat
  parts : List String

/-- All such places in the files of the package, of `pipeline` and of `examples` that
Python can parse. -/
def reads : List Read := [
  ⟨"examples/pipeline_examples/e2e_run.py", [26],
   ["rsr_reader", "RSRReader"]⟩,
  ⟨"examples/pipeline_examples/e2e_run.py", [30],
   ["occgeo", "Geometry"]⟩,
  ⟨"examples/pipeline_examples/e2e_run.py", [34],
   ["calibration", "Calibration"]⟩,
  ⟨"examples/pipeline_examples/e2e_run.py", [41],
   ["calibration", "DiffractionLimitedProfile"]⟩,
  ⟨"examples/pipeline_examples/e2e_run.py", [47, 55],
   ["diffrec", "DiffractionCorrection"]⟩,
  ⟨"examples/pipeline_examples/e2e_run.py", [52, 60],
   ["tools", "plot_summary_doc_v2"]⟩,
  ⟨"examples/pipeline_examples/quick_look_example.py", [32],
   ["tools", "ExtractCSVData"]⟩,
  ⟨"examples/pipeline_examples/quick_look_example.py", [43],
   ["diffrec", "DiffractionCorrection"]⟩,
  ⟨"pipeline/batch_parallel_raw_to_DLP_1kHz_to_50m_20260130.py", [91],
   ["rsr_reader", "RSRReader"]⟩,
  ⟨"pipeline/batch_parallel_raw_to_DLP_1kHz_to_50m_20260130.py", [99],
   ["occgeo", "Geometry"]⟩,
  ⟨"pipeline/batch_parallel_raw_to_DLP_1kHz_to_50m_20260130.py", [107],
   ["calibration", "Calibration"]⟩,
  ⟨"pipeline/batch_parallel_raw_to_DLP_1kHz_to_50m_20260130.py", [122],
   ["calibration", "DiffractionLimitedProfile"]⟩,
  ⟨"pipeline/diffrec_batch.py", [64],
   ["ExtractCSVData"]⟩,
  ⟨"pipeline/diffrec_batch.py", [70],
   ["DiffractionCorrection"]⟩,
  ⟨"pipeline/dlp_batch.py", [32],
   ["rsr_reader", "RSRReader"]⟩,
  ⟨"pipeline/dlp_batch.py", [36],
   ["occgeo", "Geometry"]⟩,
  ⟨"pipeline/dlp_batch.py", [40],
   ["calibration", "Calibration"]⟩,
  ⟨"pipeline/dlp_batch.py", [47],
   ["calibration", "DiffractionLimitedProfile"]⟩,
  ⟨"pipeline/e2e_batch.py", [36],
   ["rsr_reader", "RSRReader"]⟩,
  ⟨"pipeline/e2e_batch.py", [40],
   ["occgeo", "Geometry"]⟩,
  ⟨"pipeline/e2e_batch.py", [44],
   ["calibration", "Calibration"]⟩,
  ⟨"pipeline/e2e_batch.py", [51],
   ["calibration", "DiffractionLimitedProfile"]⟩,
  ⟨"pipeline/e2e_batch.py", [58, 78],
   ["DiffractionCorrection"]⟩,
  ⟨"pipeline/e2e_batch.py", [72, 92],
   ["tools", "plot_summary_doc_v2"]⟩,
  ⟨"pipeline/e2e_batch_1km.py", [77],
   ["rsr_reader", "RSRReader"]⟩,
  ⟨"pipeline/e2e_batch_1km.py", [84],
   ["occgeo", "Geometry"]⟩,
  ⟨"pipeline/e2e_batch_1km.py", [94],
   ["calibration", "Calibration"]⟩,
  ⟨"pipeline/e2e_batch_1km.py", [106],
   ["calibration", "DiffractionLimitedProfile"]⟩,
  ⟨"pipeline/e2e_batch_1km.py", [119, 144],
   ["DiffractionCorrection"]⟩,
  ⟨"pipeline/e2e_batch_1km.py", [139, 163],
   ["tools", "plot_summary_doc_v2"]⟩,
  ⟨"pipeline/e2e_batch_1km_20260130.py", [162],
   ["rsr_reader", "RSRReader"]⟩,
  ⟨"pipeline/e2e_batch_1km_20260130.py", [169],
   ["occgeo", "Geometry"]⟩,
  ⟨"pipeline/e2e_batch_1km_20260130.py", [182],
   ["calibration", "Calibration"]⟩,
  ⟨"pipeline/e2e_batch_1km_20260130.py", [195],
   ["calibration", "DiffractionLimitedProfile"]⟩,
  ⟨"pipeline/e2e_batch_1km_20260130.py", [212, 246],
   ["DiffractionCorrection"]⟩,
  ⟨"pipeline/e2e_batch_1km_20260130.py", [236, 273],
   ["tools", "plot_summary_doc_v5"]⟩,
  ⟨"pipeline/e2e_batch_500m.py", [77],
   ["rsr_reader", "RSRReader"]⟩,
  ⟨"pipeline/e2e_batch_500m.py", [81],
   ["occgeo", "Geometry"]⟩,
  ⟨"pipeline/e2e_batch_500m.py", [85],
   ["calibration", "Calibration"]⟩,
  ⟨"pipeline/e2e_batch_500m.py", [92],
   ["calibration", "DiffractionLimitedProfile"]⟩,
  ⟨"pipeline/e2e_batch_500m.py", [99, 118],
   ["DiffractionCorrection"]⟩,
  ⟨"pipeline/e2e_batch_500m.py", [112, 131],
   ["tools", "plot_summary_doc_v2"]⟩,
  ⟨"pipeline/e2e_batch_postUSO_1km.py", [77],
   ["rsr_reader", "RSRReader"]⟩,
  ⟨"pipeline/e2e_batch_postUSO_1km.py", [81],
   ["occgeo", "Geometry"]⟩,
  ⟨"pipeline/e2e_batch_postUSO_1km.py", [85],
   ["calibration", "Calibration"]⟩,
  ⟨"pipeline/e2e_batch_postUSO_1km.py", [92],
   ["calibration", "DiffractionLimitedProfile"]⟩,
  ⟨"pipeline/e2e_batch_postUSO_1km.py", [99, 119],
   ["DiffractionCorrection"]⟩,
  ⟨"pipeline/e2e_batch_postUSO_1km.py", [113, 133],
   ["tools", "plot_summary_doc_v2"]⟩,
  ⟨"pipeline/e2e_scattered.py", [31],
   ["rsr_reader", "RSRReader"]⟩,
  ⟨"pipeline/e2e_scattered.py", [35],
   ["occgeo", "Geometry"]⟩,
  ⟨"pipeline/e2e_scattered.py", [39],
   ["calibration", "Calibration"]⟩,
  ⟨"pipeline/e2e_scattered.py", [46],
   ["calibration", "DiffractionLimitedProfile"]⟩,
  ⟨"pipeline/e2e_scattered.py", [53, 73],
   ["DiffractionCorrection"]⟩,
  ⟨"pipeline/e2e_scattered.py", [67, 87],
   ["tools", "plot_summary_doc_v2"]⟩,
  ⟨"pipeline/e2e_scattered.py", [92],
   ["scatter", "Scatter"]⟩,
  ⟨"pipeline/edge_fit_batch.py", [58],
   ["tools", "ring_fit"]⟩,
  ⟨"rss_ringoccs/calibration/freq_offset_fit.py", [68],
   ["rsr_reader", "RSRReader"]⟩,
  ⟨"rss_ringoccs/calibration/freq_offset_fit.py", [72],
   ["occgeo", "Geometry"]⟩,
  ⟨"rss_ringoccs/tools/advanced_tools.py", [40, 132],
   ["ExtractCSVData"]⟩,
  ⟨"rss_ringoccs/tools/advanced_tools.py", [44, 136, 146],
   ["DiffractionCorrection"]⟩,
  ⟨"rss_ringoccs/tools/advanced_tools.py", [490],
   ["region_dict"]⟩,
  ⟨"rss_ringoccs/tools/rss_ringoccs_local_tools.py", [820, 1103],
   ["rsr_reader", "RSRReader"]⟩,
  ⟨"rss_ringoccs/tools/rss_ringoccs_local_tools.py", [833, 1116],
   ["occgeo", "Geometry"]⟩,
  ⟨"rss_ringoccs/tools/rss_ringoccs_local_tools.py", [843, 1124],
   ["calibration", "Calibration"]⟩,
  ⟨"rss_ringoccs/tools/rss_ringoccs_local_tools.py", [854, 1135],
   ["calibration", "DiffractionLimitedProfile"]⟩,
  ⟨"rss_ringoccs/tools/rss_ringoccs_local_tools.py", [871, 924, 1152, 1199, 3389, 3669],
   ["ExtractCSVData"]⟩,
  ⟨"rss_ringoccs/tools/rss_ringoccs_local_tools.py", [879, 1161, 3421, 3670],
   ["DiffractionCorrection"]⟩,
  ⟨"rss_ringoccs/tools/rss_ringoccs_local_tools.py", [3830, 3864],
   ["tools", "write_output_files", "write_output_files"]⟩,
  ⟨"rss_ringoccs/tools/write_output_files.py", [65],
   ["occgeo", "Geometry"]⟩,
  ⟨"rss_ringoccs/tools/write_output_files.py", [68],
   ["calibration", "Calibration"]⟩,
  ⟨"rss_ringoccs/tools/write_output_files.py", [71],
   ["calibration", "DiffractionLimitedProfile"]⟩,
  ⟨"rss_ringoccs/tools/write_output_files.py", [74],
   ["DiffractionCorrection"]⟩,
  ⟨"rss_ringoccs/tools/write_uranus_output_files.py", [43],
   ["occgeo", "occgeo_uranus", "Uranus_Geometry"]⟩,
  ⟨"rss_ringoccs/tools/write_uranus_output_files.py", [46],
   ["DiffractionCorrection"]⟩,
  ⟨"rss_ringoccs/tools/write_vgr1_saturn_output_files.py", [43],
   ["occgeo", "Geometry"]⟩,
  ⟨"rss_ringoccs/tools/write_vgr1_saturn_output_files.py", [47],
   ["diffrec", "DiffractionCorrection"]⟩]

end Verif.PyImp
