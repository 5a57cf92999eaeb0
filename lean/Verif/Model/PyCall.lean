/-!
# Calls between the Python modules

How Python binds the arguments of a call to the parameters of a function, with the parameters of the classes and functions that the pipelines
use and every call of them in the repository.

Simplifications: none of the functions has parameters of the kinds `*args`, `**kwargs` or keyword-only, and none of the calls unpacks a list
or a dictionary, so these are left out.  The parameter `self` or `cls` is left out, since Python supplies it.  The two calls in
pipeline/pipeline_uranus/scatter.py 67 and 109 are left out, because their functions do not exist (line 10 imports the module
`rss_ringoccs.reader`, and occgeo_uranus.py has no `Geometry`).
-/
namespace Verif.PyCall

/-- The names of the parameters; the first `nreq` have no default value. -/
structure Sig where
  params : List String
  nreq : Nat

/-- The reasons for a `TypeError`. -/
inductive Err where
  | unexpected
  | twice
  | tooMany
  | missing
  deriving DecidableEq, Repr

/-- What a parameter receives: a value of the call, or its default value. -/
inductive Arg (V : Type) where
  | given (v : V)
  | dflt
  deriving DecidableEq, Repr

/-- Put the keyword arguments in their places, one after the other.  Used by every call, for example pipeline/e2e_batch.py 36-52. -/
def fillKw {V : Type} (params : List String) : List (String × V) → List (Option V) → Except Err (List (Option V))
  | [], s => .ok s
  | (k, v) :: r, s =>
    let i := params.idxOf k
    if i < params.length then
      match s.getD i none with
      | some _ => .error .twice
      | none => fillKw params r (s.set i (some v))
    else .error .unexpected

/-- A call: the positional arguments first, then the keyword arguments, then the default values.  Used by every call, for example
pipeline/e2e_batch.py 36-52. -/
def bindArgs {V : Type} (g : Sig) (pos : List V) (kw : List (String × V)) : Except Err (List (Arg V)) :=
  match fillKw g.params kw ((pos.take g.params.length).map some ++ List.replicate (g.params.length - pos.length) none) with
  | .error e => .error e
  | .ok s =>
    if g.params.length < pos.length then .error .tooMany
    else if (s.take g.nreq).any Option.isNone then .error .missing
    else .ok (s.map fun | some v => .given v | none => .dflt)

/-- A place in the repository where a function is called with `nPos` positional arguments and the keywords `kws`. -/
structure Site where
  file : String
  line : Nat
  sig : Sig
  nPos : Nat
  kws : List String

/-- `RSRReader`, rss_ringoccs/rsr_reader/rsr_reader.py 218-222. -/
def rsrReader : Sig := ⟨["rsr_file", "decimate_16khz_to_1khz", "decimate_16khz_to_2khz", "decimate_16khz_to_4khz",
    "decimate_16khz_to_8khz", "decimate_50khz_to_1khz", "decimate_50khz_to_5khz", "decimate_50khz_to_10khz",
    "decimate_50khz_to_25khz", "apply_bias_correction", "NoOp", "verbose"], 1⟩

/-- `Geometry`, rss_ringoccs/occgeo/occgeo.py 135-139. -/
def geometry : Sig := ⟨["rsr_inst", "planet", "spacecraft", "kernels", "pt_per_sec", "ref", "ring_frame", "nhat_p",
    "local_path_to_output", "local_path_to_tables", "verbose", "write_file"], 4⟩

/-- `Calibration`, rss_ringoccs/calibration/calibration_class.py 81-82. -/
def calibration : Sig := ⟨["rsr_inst", "geo_inst", "pnf_order", "fof_lims", "verbose", "write_file", "local_path_to_output",
    "interact"], 2⟩

/-- `create_dlps`, rss_ringoccs/calibration/dlp_class.py 368-370. -/
def createDlps : Sig := ⟨["rsr_inst", "geo_inst", "cal_inst", "dr_km", "verbose", "write_file", "profile_range",
    "local_path_to_output"], 4⟩

/-- `VGRUranusReader`, rss_ringoccs/rsr_reader/vgr_uranus_reader.py 13-13. -/
def vgrUranusReader : Sig := ⟨["data_dir", "prof_dir"], 2⟩

/-- `Scatter`, rss_ringoccs/scatter/spectrogram.py 129-130. -/
def scatter : Sig := ⟨["rsr_inst", "geo_inst", "cal_inst", "rho_limits", "stack", "nstack", "hires", "numpts", "nsegs"], 3⟩

/-- `FreqOffsetFit`, rss_ringoccs/calibration/freq_offset_fit.py 63-64. -/
def freqOffsetFit : Sig := ⟨["rsr_inst", "geo_inst", "f_uso_x", "verbose", "local_path_to_output", "write_file", "fof_lims"], 2⟩

/-- `Normalization`, rss_ringoccs/calibration/power_normalization.py 59-62. -/
def normalization : Sig := ⟨["spm_raw", "IQ_c", "geo_inst", "order", "fittype", "interact", "verbose", "local_path_to_output",
    "write_file"], 3⟩

/-- `write_output_files`, rss_ringoccs/tools/write_output_files.py 34-36. -/
def writeOutputFiles : Sig := ⟨["inst", "add_text", "rev_info", "local_path_to_tables", "add_suffix", "history",
    "local_path_to_output", "verbose"], 1⟩

/-- `calc_tau_thresh`, rss_ringoccs/calibration/calc_tau_thresh.py 58-59. -/
def calcTauThresh : Sig := ⟨["rsr_inst", "geo_inst", "cal_inst", "res_km", "Calpha"], 3⟩

/-- `resample_IQ`, rss_ringoccs/calibration/resample_IQ.py 94-94. -/
def resampleIQ : Sig := ⟨["rho_km", "IQ_c", "dr_desired", "verbose"], 3⟩

/-- `demo_e2e_event`, rss_ringoccs/tools/rss_ringoccs_local_tools.py 767-781. -/
def demoEvent : Sig := ⟨["Rev", "direction", "DSN", "dr_km_desired", "res_km", "res_factor", "profile_range", "inversion_range",
    "psitype", "ring_frame", "ylim_tau", "wtype", "include_CORSS_8001", "plot", "plot_phase", "local_path_to_data",
    "adjust_phase", "y_offset", "dy_offset", "local_path_to_kernels", "local_path_to_tables", "local_path_to_output",
    "local_path_to_demo_figs", "save_figfile", "_16kHz", "decimate_16khz_to_1khz", "decimate_16khz_to_2khz",
    "decimate_16khz_to_4khz", "decimate_16khz_to_8khz", "decimate_50khz_to_25khz", "decimate_50khz_to_10khz",
    "decimate_50khz_to_5khz", "decimate_50khz_to_1khz", "verbose", "silent", "show", "program", "use_CSVs", "PerformInversion",
    "compute_tau_threshold_", "compute_dr_pole", "compute_dr_trajectory", "fit_number"], 0⟩

/-- `demo_e2e_event_loop`, rss_ringoccs/tools/rss_ringoccs_local_tools.py 927-944. -/
def demoEventLoop : Sig := ⟨["Rev", "direction", "DSN", "dr_km_desired", "res_km", "resolution_factor", "profile_range",
    "inversion_range", "psitype", "rsr_file", "_16kHz", "decimate_16khz_to_8khz", "decimate_16khz_to_4khz",
    "decimate_16khz_to_2khz", "decimate_16khz_to_1khz", "decimate_50khz_to_25khz", "decimate_50khz_to_10khz",
    "decimate_50khz_to_5khz", "decimate_50khz_to_1khz", "wtype", "include_CORSS_8001", "plot", "plot_phase",
    "local_path_to_data", "local_path_to_tables", "save_figfile", "adjust_phase", "y_offset", "dy_offset",
    "local_path_to_kernels", "title", "verbose", "silent", "show", "program", "use_CSVs", "PerformInversion",
    "compute_tau_threshold_", "compute_dr_pole", "compute_dr_trajectory", "fit_number"], 0⟩

/-- `data_from_inst`, rss_ringoccs/tools/rss_ringoccs_local_tools.py 552-552. -/
def dataFromInst : Sig := ⟨["dlp_inst", "verbose"], 1⟩

/-- `set_tau_history_from_inst`, rss_ringoccs/tools/rss_ringoccs_local_tools.py 3591-3592 (the same parameters in rss_ringoccs/tools/pds3_tau_series.py 840). -/
def setTauHistory : Sig := ⟨["tau_inst", "geo_inst", "cal_inst", "dlp_inst", "tstart", "tend", "res_km", "inversion_range",
    "res_factor", "psitype", "wtype", "program", "rssocc_version"], 12⟩

/-- `write_tau_files_from_inst`, rss_ringoccs/tools/rss_ringoccs_local_tools.py 3842-3844 (the same parameters in rss_ringoccs/tools/pds3_tau_series.py 806). -/
def writeTauFiles : Sig := ⟨["tau_inst", "geo_inst", "cal_inst", "dlp_inst", "tstart", "tend", "res_km", "inversion_range",
    "res_factor", "psitype", "wtype", "program", "local_path_to_output", "verbose"], 12⟩

/-- The calls.  Each line names the file and the line of the call. -/
def sites : List Site := [
  ⟨"examples/pipeline_examples/e2e_run.py", 26, rsrReader, 1, ["verbose", "decimate_16khz_to_1khz"]⟩,
  ⟨"pipeline/batch_parallel_raw_to_DLP_1kHz_to_50m_20260130.py", 91, rsrReader, 1, ["verbose", "decimate_16khz_to_1khz"]⟩,
  ⟨"pipeline/dlp_batch.py", 32, rsrReader, 1, ["verbose", "decimate_16khz_to_1khz"]⟩,
  ⟨"pipeline/e2e_batch.py", 36, rsrReader, 1, ["verbose", "decimate_16khz_to_1khz"]⟩,
  ⟨"pipeline/e2e_batch_1km.py", 77, rsrReader, 1, ["verbose", "decimate_16khz_to_1khz"]⟩,
  ⟨"pipeline/e2e_batch_1km_20260130.py", 162, rsrReader, 1, ["verbose", "decimate_16khz_to_1khz"]⟩,
  ⟨"pipeline/e2e_batch_500m.py", 77, rsrReader, 1, ["verbose", "decimate_16khz_to_1khz"]⟩,
  ⟨"pipeline/e2e_batch_postUSO_1km.py", 77, rsrReader, 1, ["verbose", "decimate_16khz_to_1khz"]⟩,
  ⟨"pipeline/e2e_scattered.py", 31, rsrReader, 1, ["verbose", "decimate_16khz_to_1khz"]⟩,
  ⟨"rss_ringoccs/tools/rss_ringoccs_local_tools.py", 820, rsrReader, 1, ["decimate_16khz_to_8khz", "decimate_16khz_to_4khz",
    "decimate_16khz_to_2khz", "decimate_16khz_to_1khz", "decimate_50khz_to_25khz", "decimate_50khz_to_10khz",
    "decimate_50khz_to_5khz", "decimate_50khz_to_1khz", "verbose"]⟩,
  ⟨"rss_ringoccs/tools/rss_ringoccs_local_tools.py", 1103, rsrReader, 1, ["verbose", "decimate_16khz_to_8khz",
    "decimate_16khz_to_4khz", "decimate_16khz_to_2khz", "decimate_16khz_to_1khz", "decimate_50khz_to_25khz",
    "decimate_50khz_to_10khz", "decimate_50khz_to_5khz", "decimate_50khz_to_1khz"]⟩,
  ⟨"examples/pipeline_examples/e2e_run.py", 30, geometry, 4, ["verbose", "write_file"]⟩,
  ⟨"pipeline/batch_parallel_raw_to_DLP_1kHz_to_50m_20260130.py", 99, geometry, 4, ["local_path_to_tables", "local_path_to_output",
    "verbose", "write_file"]⟩,
  ⟨"pipeline/dlp_batch.py", 36, geometry, 4, ["verbose", "write_file"]⟩,
  ⟨"pipeline/e2e_batch.py", 40, geometry, 4, ["verbose", "write_file"]⟩,
  ⟨"pipeline/e2e_batch_1km.py", 84, geometry, 4, ["verbose", "write_file"]⟩,
  ⟨"pipeline/e2e_batch_1km_20260130.py", 169, geometry, 4, ["local_path_to_tables", "local_path_to_output", "verbose",
    "write_file"]⟩,
  ⟨"pipeline/e2e_batch_500m.py", 81, geometry, 4, ["verbose", "write_file"]⟩,
  ⟨"pipeline/e2e_batch_postUSO_1km.py", 81, geometry, 4, ["verbose", "write_file"]⟩,
  ⟨"pipeline/e2e_scattered.py", 35, geometry, 4, ["verbose", "write_file"]⟩,
  ⟨"pipeline/pipeline_uranus/geocal.py", 108, geometry, 9, ["pt_per_sec", "ref", "nhat_p", "ring_frame", "verbose", "write_file"]⟩,
  ⟨"rss_ringoccs/tools/rss_ringoccs_local_tools.py", 833, geometry, 4, ["ring_frame", "local_path_to_tables",
    "local_path_to_output", "verbose", "write_file"]⟩,
  ⟨"rss_ringoccs/tools/rss_ringoccs_local_tools.py", 1116, geometry, 4, ["local_path_to_tables", "local_path_to_output",
    "verbose", "write_file"]⟩,
  ⟨"examples/pipeline_examples/e2e_run.py", 34, calibration, 2, ["verbose", "write_file", "pnf_order", "interact"]⟩,
  ⟨"pipeline/batch_parallel_raw_to_DLP_1kHz_to_50m_20260130.py", 107, calibration, 2, ["verbose", "write_file",
    "local_path_to_output", "pnf_order", "interact"]⟩,
  ⟨"pipeline/dlp_batch.py", 40, calibration, 2, ["verbose", "write_file", "pnf_order", "interact"]⟩,
  ⟨"pipeline/e2e_batch.py", 44, calibration, 2, ["verbose", "write_file", "pnf_order", "interact"]⟩,
  ⟨"pipeline/e2e_batch_1km.py", 94, calibration, 2, ["verbose", "write_file", "pnf_order", "interact"]⟩,
  ⟨"pipeline/e2e_batch_1km_20260130.py", 182, calibration, 2, ["verbose", "write_file", "local_path_to_output", "pnf_order",
    "interact"]⟩,
  ⟨"pipeline/e2e_batch_500m.py", 85, calibration, 2, ["verbose", "write_file", "pnf_order", "interact"]⟩,
  ⟨"pipeline/e2e_batch_postUSO_1km.py", 85, calibration, 2, ["verbose", "write_file", "pnf_order", "interact"]⟩,
  ⟨"pipeline/e2e_scattered.py", 39, calibration, 2, ["verbose", "write_file", "pnf_order", "interact"]⟩,
  ⟨"rss_ringoccs/tools/rss_ringoccs_local_tools.py", 843, calibration, 2, ["verbose", "write_file", "local_path_to_output",
    "pnf_order", "interact"]⟩,
  ⟨"rss_ringoccs/tools/rss_ringoccs_local_tools.py", 1124, calibration, 2, ["verbose", "write_file", "local_path_to_output",
    "pnf_order", "interact"]⟩,
  ⟨"examples/pipeline_examples/e2e_run.py", 41, createDlps, 4, ["profile_range", "write_file", "verbose"]⟩,
  ⟨"pipeline/batch_parallel_raw_to_DLP_1kHz_to_50m_20260130.py", 122, createDlps, 4, ["profile_range", "local_path_to_output",
    "write_file", "verbose"]⟩,
  ⟨"pipeline/dlp_batch.py", 47, createDlps, 4, ["profile_range", "write_file", "verbose"]⟩,
  ⟨"pipeline/e2e_batch.py", 51, createDlps, 4, ["profile_range", "write_file", "verbose"]⟩,
  ⟨"pipeline/e2e_batch_1km.py", 106, createDlps, 4, ["profile_range", "write_file", "verbose"]⟩,
  ⟨"pipeline/e2e_batch_1km_20260130.py", 195, createDlps, 4, ["profile_range", "write_file", "local_path_to_output", "verbose"]⟩,
  ⟨"pipeline/e2e_batch_500m.py", 92, createDlps, 4, ["profile_range", "write_file", "verbose"]⟩,
  ⟨"pipeline/e2e_batch_postUSO_1km.py", 92, createDlps, 4, ["profile_range", "write_file", "verbose"]⟩,
  ⟨"pipeline/e2e_scattered.py", 46, createDlps, 4, ["profile_range", "write_file", "verbose"]⟩,
  ⟨"rss_ringoccs/tools/rss_ringoccs_local_tools.py", 854, createDlps, 4, ["profile_range", "local_path_to_output", "write_file",
    "verbose"]⟩,
  ⟨"rss_ringoccs/tools/rss_ringoccs_local_tools.py", 1135, createDlps, 4, ["profile_range", "local_path_to_output", "write_file",
    "verbose"]⟩,
  ⟨"pipeline/pipeline_uranus/geocal.py", 66, vgrUranusReader, 2, []⟩,
  ⟨"pipeline/pipeline_uranus/reader_test.py", 14, vgrUranusReader, 2, []⟩,
  ⟨"pipeline/e2e_scattered.py", 92, scatter, 3, ["stack", "nstack"]⟩,
  ⟨"pipeline/pipeline_uranus/scatter.py", 192, scatter, 7, ["rho_limits", "nstack"]⟩,
  ⟨"rss_ringoccs/calibration/calibration_class.py", 126, freqOffsetFit, 2, ["verbose", "local_path_to_output", "write_file",
    "fof_lims"]⟩,
  ⟨"rss_ringoccs/calibration/calibration_class.py", 135, normalization, 3, ["order", "verbose", "interact",
    "local_path_to_output", "write_file"]⟩,
  ⟨"pipeline/e2e_batch_1km.py", 137, writeOutputFiles, 1, []⟩,
  ⟨"pipeline/e2e_batch_1km.py", 161, writeOutputFiles, 1, []⟩,
  ⟨"pipeline/e2e_batch_1km_20260130.py", 231, writeOutputFiles, 1, ["rev_info", "history", "local_path_to_output"]⟩,
  ⟨"pipeline/e2e_batch_1km_20260130.py", 267, writeOutputFiles, 1, ["rev_info", "history", "local_path_to_output"]⟩,
  ⟨"pipeline/pipeline_uranus/reconstruction.py", 98, writeOutputFiles, 1, []⟩,
  ⟨"rss_ringoccs/calibration/calibration_class.py", 189, writeOutputFiles, 1, ["local_path_to_output"]⟩,
  ⟨"rss_ringoccs/calibration/dlp_class.py", 252, writeOutputFiles, 1, ["local_path_to_output"]⟩,
  ⟨"rss_ringoccs/occgeo/occgeo.py", 452, writeOutputFiles, 1, ["local_path_to_output", "local_path_to_tables"]⟩,
  ⟨"rss_ringoccs/tools/pds3_tau_series.py", 828, writeOutputFiles, 1, ["rev_info", "history", "local_path_to_output"]⟩,
  ⟨"rss_ringoccs/tools/rss_ringoccs_local_tools.py", 3830, writeOutputFiles, 1, ["rev_info", "local_path_to_output"]⟩,
  ⟨"rss_ringoccs/tools/rss_ringoccs_local_tools.py", 3864, writeOutputFiles, 1, ["rev_info", "history", "local_path_to_output"]⟩,
  ⟨"rss_ringoccs/tools/rss_ringoccs_local_tools.py", 3464, writeOutputFiles, 1, ["rev_info", "history", "local_path_to_output"]⟩,
  ⟨"pipeline/pipeline_uranus/dlp.py", 251, calcTauThresh, 8, ["res_km"]⟩,
  ⟨"rss_ringoccs/calibration/dlp_class.py", 200, calcTauThresh, 3, ["res_km"]⟩,
  ⟨"pipeline/pipeline_uranus/dlp.py", 225, resampleIQ, 3, []⟩,
  ⟨"rss_ringoccs/calibration/dlp_class.py", 145, resampleIQ, 3, ["verbose"]⟩,
  ⟨"rss_ringoccs/tools/rss_ringoccs_local_tools.py", 1225, demoEvent, 0, ["Rev", "direction", "DSN", "dr_km_desired", "res_km",
    "res_factor", "profile_range", "inversion_range", "psitype", "wtype", "include_CORSS_8001", "plot", "plot_phase",
    "ylim_tau", "verbose", "silent", "show", "_16kHz", "use_CSVs", "local_path_to_kernels", "local_path_to_data",
    "local_path_to_tables", "local_path_to_output"]⟩,
  ⟨"rss_ringoccs/tools/rss_ringoccs_local_tools.py", 1295, demoEvent, 0, ["Rev", "direction", "DSN", "dr_km_desired", "res_km",
    "res_factor", "profile_range", "inversion_range", "psitype", "wtype", "include_CORSS_8001", "plot", "plot_phase",
    "ylim_tau", "verbose", "silent", "show", "_16kHz", "use_CSVs", "local_path_to_kernels", "local_path_to_data",
    "local_path_to_tables", "local_path_to_output"]⟩,
  ⟨"rss_ringoccs/tools/rss_ringoccs_local_tools.py", 1313, demoEvent, 0, ["Rev", "direction", "DSN", "dr_km_desired", "res_km",
    "res_factor", "profile_range", "inversion_range", "psitype", "wtype", "ring_frame", "include_CORSS_8001", "plot",
    "plot_phase", "ylim_tau", "verbose", "silent", "show", "_16kHz", "adjust_phase", "local_path_to_kernels",
    "local_path_to_data", "local_path_to_tables", "local_path_to_output"]⟩,
  ⟨"rss_ringoccs/tools/rss_ringoccs_local_tools.py", 1332, demoEvent, 0, ["Rev", "direction", "DSN", "dr_km_desired", "res_km",
    "res_factor", "profile_range", "inversion_range", "psitype", "wtype", "ring_frame", "include_CORSS_8001", "plot",
    "plot_phase", "ylim_tau", "verbose", "silent", "show", "_16kHz", "adjust_phase", "local_path_to_kernels",
    "local_path_to_data", "local_path_to_tables", "local_path_to_output"]⟩,
  ⟨"rss_ringoccs/tools/rss_ringoccs_local_tools.py", 1261, demoEventLoop, 0, ["Rev", "direction", "DSN", "dr_km_desired",
    "res_km", "res_factor", "profile_range", "inversion_range", "psitype", "wtype", "include_CORSS_8001", "plot", "plot_phase",
    "ylim_tau", "verbose", "silent", "show", "_16kHz", "decimate_16khz_to_1khz", "decimate_16khz_to_2khz",
    "decimate_16khz_to_4khz", "decimate_16khz_to_8khz", "local_path_to_kernels", "local_path_to_data", "local_path_to_tables",
    "local_path_to_output"]⟩,
  ⟨"rss_ringoccs/tools/rss_ringoccs_local_tools.py", 1370, demoEventLoop, 0, ["Rev", "direction", "DSN", "dr_km_desired",
    "res_km", "res_factor", "profile_range", "inversion_range", "psitype", "wtype", "include_CORSS_8001", "plot", "plot_phase",
    "ylim_tau", "verbose", "silent", "show", "_16kHz", "decimate_16khz_to_1khz", "decimate_16khz_to_2khz",
    "decimate_16khz_to_4khz", "decimate_16khz_to_8khz", "local_path_to_kernels", "local_path_to_data", "local_path_to_tables",
    "local_path_to_output"]⟩,
  ⟨"rss_ringoccs/tools/rss_ringoccs_local_tools.py", 1408, demoEventLoop, 0, ["Rev", "direction", "DSN", "dr_km_desired",
    "res_km", "res_factor", "profile_range", "inversion_range", "psitype", "wtype", "include_CORSS_8001", "plot", "plot_phase",
    "ylim_tau", "verbose", "silent", "show", "_16kHz", "decimate_16khz_to_1khz", "decimate_16khz_to_2khz",
    "decimate_16khz_to_4khz", "decimate_16khz_to_8khz", "local_path_to_kernels", "local_path_to_data", "local_path_to_tables",
    "local_path_to_output"]⟩,
  ⟨"rss_ringoccs/tools/rss_ringoccs_local_tools.py", 1446, demoEventLoop, 0, ["Rev", "direction", "DSN", "dr_km_desired",
    "res_km", "res_factor", "profile_range", "inversion_range", "psitype", "wtype", "include_CORSS_8001", "plot", "plot_phase",
    "ylim_tau", "verbose", "silent", "show", "_16kHz", "decimate_16khz_to_1khz", "decimate_16khz_to_2khz",
    "decimate_16khz_to_4khz", "decimate_16khz_to_8khz", "local_path_to_kernels", "local_path_to_data", "local_path_to_tables",
    "local_path_to_output"]⟩,
  ⟨"rss_ringoccs/tools/rss_ringoccs_local_tools.py", 1488, demoEventLoop, 0, ["Rev", "direction", "DSN", "dr_km_desired",
    "res_km", "res_factor", "profile_range", "inversion_range", "psitype", "wtype", "include_CORSS_8001", "plot", "plot_phase",
    "ylim_tau", "PerformInversion", "verbose", "silent", "show", "_16kHz", "decimate_16khz_to_1khz", "decimate_16khz_to_2khz",
    "decimate_16khz_to_4khz", "decimate_16khz_to_8khz", "rsr_file", "CORSS_8001_filepath", "local_path_to_kernels",
    "local_path_to_data", "local_path_to_tables", "local_path_to_output"]⟩,
  ⟨"pipeline/e2e_batch_1km_20260130.py", 211, dataFromInst, 1, []⟩,
  ⟨"pipeline/e2e_batch_1km_20260130.py", 245, dataFromInst, 1, []⟩,
  ⟨"rss_ringoccs/tools/rss_ringoccs_local_tools.py", 874, dataFromInst, 5, []⟩,
  ⟨"rss_ringoccs/tools/rss_ringoccs_local_tools.py", 1154, dataFromInst, 6, []⟩,
  ⟨"pipeline/e2e_batch_1km_20260130.py", 226, setTauHistory, 12, ["rssocc_version"]⟩,
  ⟨"pipeline/e2e_batch_1km_20260130.py", 262, setTauHistory, 12, ["rssocc_version"]⟩,
  ⟨"rss_ringoccs/tools/pds3_tau_series.py", 823, setTauHistory, 12, []⟩,
  ⟨"rss_ringoccs/tools/rss_ringoccs_local_tools.py", 3545, setTauHistory, 12, ["rssocc_version"]⟩,
  ⟨"rss_ringoccs/tools/rss_ringoccs_local_tools.py", 3859, setTauHistory, 12, []⟩,
  ⟨"rss_ringoccs/tools/rss_ringoccs_local_tools.py", 904, writeTauFiles, 12, ["local_path_to_output"]⟩]

end Verif.PyCall
