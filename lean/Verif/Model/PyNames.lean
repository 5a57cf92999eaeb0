import Verif.Model.Rsr

/-!
# The names that the functions of the package read
-/

namespace Verif.Names

/-- A function: its name (with the functions and classes around it), the line of its
definition and the names that it reads and that are neither its own nor those of a function
around it. -/
structure Fn where
  name : String
  line : Nat
  reads : List String

/-- A module: its file, the names it binds at its top level (those that some function reads)
and its functions. -/
structure Mod where
  file : String
  names : List String
  fns : List Fn

/-- The names of Python itself that are read. -/
def builtins : List String :=
  ["AttributeError", "Exception", "FileNotFoundError", "IndexError", "NameError",
   "TypeError", "ValueError", "__file__", "abs", "all", "bool", "chr", "complex", "dict",
   "dir", "enumerate", "float", "format", "getattr", "hasattr", "input", "int",
   "isinstance", "len", "list", "max", "min", "open", "print", "range", "round", "setattr",
   "str", "tuple", "type", "zip"]

/-- What a read gives: the value of the module's name, of Python's own name, or
`NameError`. -/
inductive Found where
  | global
  | builtin
  | nameError
deriving DecidableEq, Repr

def find (m : Mod) (x : String) : Found :=
  if m.names.contains x then .global
  else if builtins.contains x then .builtin
  else .nameError

/-- A run of a function after its module has been imported: it reads names one after
another until one is not found.  The result is the name that is not found, if any. -/
def runReads (m : Mod) : List String → Option String
  | [] => none
  | x :: xs => if find m x = .nameError then some x else runReads m xs

/-- A path through a function reads some of its names, in any order and any number of
times. -/
def Path (f : Fn) (p : List String) : Prop := ∀ x ∈ p, x ∈ f.reads

/-- `rss_ringoccs/calibration/calc_f_sky_recon.py` lines 56-183 (the lines of the definitions). -/
def m00 : Mod where
  file := "rss_ringoccs/calibration/calc_f_sky_recon.py"
  names :=
    ["GM_SSB", "ID_SSB", "LTfac", "TURNR", "derlt", "derpt", "np", "spice", "spm_to_et"]
  fns := [
    ⟨"calc_f_sky_recon", 56,
      ["TURNR", "derlt", "derpt", "len", "np", "range", "spice", "spm_to_et"]⟩,
    ⟨"derlt", 127,
      ["LTfac", "spice"]⟩,
    ⟨"derpt", 183,
      ["GM_SSB", "ID_SSB", "len", "np", "range", "spice"]⟩]

/-- `rss_ringoccs/calibration/calc_freq_offset.py` lines 38-124 (the lines of the definitions). -/
def m01 : Mod where
  file := "rss_ringoccs/calibration/calc_freq_offset.py"
  names :=
    ["np"]
  fns := [
    ⟨"calc_freq_offset.__init__", 38,
      []⟩,
    ⟨"calc_freq_offset.__find_offset_freqs", 58,
      ["len", "np", "tuple"]⟩,
    ⟨"calc_freq_offset.__find_peak_freq", 92,
      ["float", "len", "np"]⟩,
    ⟨"calc_freq_offset.__find_peak_freq.listcomp", 124,
      ["np"]⟩]

/-- `rss_ringoccs/calibration/calc_tau_thresh.py` lines 58-95 (the lines of the definitions). -/
def m02 : Mod where
  file := "rss_ringoccs/calibration/calc_tau_thresh.py"
  names :=
    ["np", "spectrogram"]
  fns := [
    ⟨"calc_tau_thresh.__init__", 58,
      ["abs", "np"]⟩,
    ⟨"calc_tau_thresh.find_noise", 95,
      ["int", "np", "spectrogram"]⟩]

/-- `rss_ringoccs/calibration/calibration_class.py` lines 81-192 (the lines of the definitions). -/
def m03 : Mod where
  file := "rss_ringoccs/calibration/calibration_class.py"
  names :=
    ["FreqOffsetFit", "Geometry", "Normalization", "np", "splev", "splrep", "sys",
     "write_history_dict", "write_output_files"]
  fns := [
    ⟨"Calibration.__init__", 81,
      ["FreqOffsetFit", "Geometry", "Normalization", "__file__", "bool", "isinstance",
       "print", "splev", "splrep", "sys", "write_history_dict", "write_output_files"]⟩,
    ⟨"Calibration.correct_IQ", 192,
      ["np", "round", "splev", "splrep"]⟩]

/-- `rss_ringoccs/calibration/dlp_class.py` lines 91-368 (the lines of the definitions). -/
def m04 : Mod where
  file := "rss_ringoccs/calibration/dlp_class.py"
  names :=
    ["calc_tau_thresh", "copy", "interp1d", "np", "resample_IQ", "splev", "splrep",
     "write_history_dict", "write_output_files"]
  fns := [
    ⟨"DiffractionLimitedProfile.__init__", 91,
      ["ValueError", "__file__", "abs", "calc_tau_thresh", "hasattr", "interp1d", "list",
       "max", "min", "np", "print", "resample_IQ", "round", "splev", "splrep", "str",
       "write_history_dict", "write_output_files"]⟩,
    ⟨"DiffractionLimitedProfile.__init__.lambda", 162,
      ["abs"]⟩,
    ⟨"DiffractionLimitedProfile.__init__.lambda", 165,
      ["abs"]⟩,
    ⟨"DiffractionLimitedProfile.__interp_and_set_attr", 256,
      ["len", "max", "min", "np", "str"]⟩,
    ⟨"DiffractionLimitedProfile.create_dlps", 368,
      ["ValueError", "copy", "hasattr", "max", "min", "np"]⟩]

/-- `rss_ringoccs/calibration/freq_offset_fit.py` lines 63-599 (the lines of the definitions). -/
def m05 : Mod where
  file := "rss_ringoccs/calibration/freq_offset_fit.py"
  names :=
    ["argrelmax", "calc_f_sky_recon", "calc_freq_offset", "construct_filepath", "np",
     "plt", "rss", "splev", "splrep", "sys"]
  fns := [
    ⟨"FreqOffsetFit.__init__", 63,
      ["ValueError", "bool", "calc_f_sky_recon", "calc_freq_offset", "isinstance", "len",
       "np", "print", "rss", "splev", "splrep", "sys"]⟩,
    ⟨"FreqOffsetFit.create_mask", 184,
      ["abs", "bool", "float", "len", "np", "range", "round"]⟩,
    ⟨"FreqOffsetFit.__sigma_clip", 292,
      ["abs", "bool", "int", "len", "np", "range"]⟩,
    ⟨"FreqOffsetFit.__neighbor_check", 337,
      ["len", "range"]⟩,
    ⟨"FreqOffsetFit.calc_poly_order", 357,
      ["float", "len", "np", "print", "round"]⟩,
    ⟨"FreqOffsetFit.calc_poly_order.genexpr", 382,
      ["str"]⟩,
    ⟨"FreqOffsetFit.calc_poly_order.genexpr", 408,
      ["str"]⟩,
    ⟨"FreqOffsetFit.get_disconts", 414,
      ["abs", "argrelmax", "len", "np", "range"]⟩,
    ⟨"FreqOffsetFit.get_disconts.listcomp", 449,
      []⟩,
    ⟨"FreqOffsetFit.__centdiff2", 485,
      ["np"]⟩,
    ⟨"FreqOffsetFit.fit_freq_offset", 498,
      ["float", "int", "len", "max", "np", "range"]⟩,
    ⟨"FreqOffsetFit.plotFORFit", 599,
      ["construct_filepath", "dict", "np", "plt", "print", "str", "zip"]⟩]

/-- `rss_ringoccs/calibration/power_normalization.py` lines 59-510 (the lines of the definitions). -/
def m06 : Mod where
  file := "rss_ringoccs/calibration/power_normalization.py"
  names :=
    ["GridSpec", "construct_filepath", "np", "plt", "signal", "splev", "splrep"]
  fns := [
    ⟨"Normalization.__init__", 59,
      ["len", "np", "range", "splev", "splrep"]⟩,
    ⟨"Normalization.__init__.listcomp", 93,
      []⟩,
    ⟨"Normalization.__init__.listcomp", 101,
      []⟩,
    ⟨"Normalization.hfit_med", 121,
      ["float", "len", "np"]⟩,
    ⟨"Normalization.fit_check", 133,
      ["input", "int", "np", "print"]⟩,
    ⟨"Normalization.fit_check.genexpr", 166,
      ["str"]⟩,
    ⟨"Normalization.extract_list_from_str", 214,
      ["enumerate", "float", "len", "print", "range"]⟩,
    ⟨"Normalization.extract_list_from_str.listcomp", 229,
      []⟩,
    ⟨"Normalization.create_mask", 247,
      ["len", "np", "range", "zip"]⟩,
    ⟨"Normalization.create_mask.listcomp", 303,
      []⟩,
    ⟨"Normalization.fit_freespace_power", 327,
      ["float", "len", "min", "np", "print", "range", "splev", "splrep"]⟩,
    ⟨"Normalization.plot_power_profile", 408,
      ["GridSpec", "construct_filepath", "float", "int", "len", "np", "plt", "print",
       "range", "round", "str", "zip"]⟩,
    ⟨"Normalization.downsample_IQ", 510,
      ["abs", "len", "np", "round", "signal"]⟩]

/-- `rss_ringoccs/calibration/resample_IQ.py` lines 14-94 (the lines of the definitions). -/
def m07 : Mod where
  file := "rss_ringoccs/calibration/resample_IQ.py"
  names :=
    ["interp1d", "np", "pre_resample", "signal"]
  fns := [
    ⟨"pre_resample", 14,
      ["abs", "float", "int", "interp1d", "len", "np", "print", "round", "str"]⟩,
    ⟨"resample_IQ", 94,
      ["len", "np", "pre_resample", "print", "signal"]⟩]

/-- `rss_ringoccs/occgeo/calc_occ_geometry.py` lines 25-1161 (the lines of the definitions). -/
def m08 : Mod where
  file := "rss_ringoccs/occgeo/calc_occ_geometry.py"
  names :=
    ["DEGREES_PER_RADIAN", "RADIANS_PER_DEGREE", "SECONDS_PER_DAY",
     "SPEED_OF_LIGHT_KILOMETERS_PER_SECOND", "calc_B_eff_deg", "calc_phi_deg",
     "calc_rho_vec_km", "find_gaps", "get_freespace_km", "get_start_jd", "interp1d", "np",
     "rad_converge", "remove_blocked", "spice", "split_chord_arr", "xform_j2k_to_pcf"]
  fns := [
    ⟨"calc_B_deg", 25,
      ["DEGREES_PER_RADIAN", "float", "isinstance", "len", "np", "range", "spice"]⟩,
    ⟨"calc_D_km", 75,
      ["SPEED_OF_LIGHT_KILOMETERS_PER_SECOND", "abs"]⟩,
    ⟨"calc_F_km", 88,
      ["RADIANS_PER_DEGREE", "SPEED_OF_LIGHT_KILOMETERS_PER_SECOND", "np"]⟩,
    ⟨"calc_B_eff_deg", 120,
      ["np"]⟩,
    ⟨"calc_beta", 141,
      ["calc_B_eff_deg", "np"]⟩,
    ⟨"calc_elevation_deg", 157,
      ["DEGREES_PER_RADIAN", "len", "np", "range", "spice"]⟩,
    ⟨"calc_impact_radius_km", 201,
      ["len", "np", "range", "spice", "xform_j2k_to_pcf"]⟩,
    ⟨"calc_phi_deg", 257,
      ["DEGREES_PER_RADIAN", "len", "np", "range", "spice"]⟩,
    ⟨"calc_rho_km", 334,
      ["calc_rho_vec_km", "np"]⟩,
    ⟨"calc_rho_km.listcomp", 359,
      ["spice"]⟩,
    ⟨"calc_rho_vec_km", 363,
      ["len", "np", "print", "range", "spice", "str"]⟩,
    ⟨"calc_rip_velocity", 473,
      ["np"]⟩,
    ⟨"calc_sc_state", 496,
      ["len", "range", "spice", "xform_j2k_to_pcf"]⟩,
    ⟨"calc_set_et", 559,
      ["np", "spice"]⟩,
    ⟨"calc_uplink_geo", 592,
      ["calc_phi_deg", "calc_rho_vec_km", "np", "spice"]⟩,
    ⟨"calc_uplink_geo.listcomp", 606,
      ["spice"]⟩,
    ⟨"get_start_jd", 613,
      ["float", "spice", "str"]⟩,
    ⟨"find_gaps", 630,
      ["get_start_jd", "int", "len", "max", "min", "np", "rad_converge", "range", "spice"]⟩,
    ⟨"rad_converge", 707,
      ["abs", "int", "min", "np"]⟩,
    ⟨"get_freespace", 797,
      ["ValueError", "get_freespace_km", "interp1d", "len", "np", "print",
       "remove_blocked", "split_chord_arr"]⟩,
    ⟨"get_freespace.listcomp", 842,
      []⟩,
    ⟨"get_freespace.listcomp", 892,
      []⟩,
    ⟨"split_chord_arr", 900,
      ["ValueError", "remove_blocked"]⟩,
    ⟨"remove_blocked", 970,
      ["len", "np", "range"]⟩,
    ⟨"remove_blocked.listcomp", 1000,
      []⟩,
    ⟨"get_freespace_km", 1012,
      ["find_gaps", "max", "min"]⟩,
    ⟨"get_planet_occ_times", 1055,
      ["len", "np", "range", "spice", "str"]⟩,
    ⟨"get_planet_occ_times.listcomp", 1092,
      []⟩,
    ⟨"get_pole", 1111,
      ["RADIANS_PER_DEGREE", "SECONDS_PER_DAY", "spice"]⟩,
    ⟨"xform_j2k_to_pcf", 1161,
      ["np", "spice"]⟩]

/-- `rss_ringoccs/occgeo/occgeo.py` lines 135-597 (the lines of the definitions). -/
def m09 : Mod where
  file := "rss_ringoccs/occgeo/occgeo.py"
  names :=
    ["cog", "et_to_spm", "np", "spice", "spm_to_et", "write_history_dict",
     "write_output_files"]
  fns := [
    ⟨"Geometry.__init__", 135,
      ["ValueError", "__file__", "cog", "et_to_spm", "float", "int", "isinstance", "len",
       "np", "print", "spice", "spm_to_et", "str", "type", "write_history_dict",
       "write_output_files"]⟩,
    ⟨"Geometry.__init__.listcomp", 275,
      ["spice"]⟩,
    ⟨"Geometry.__get_naif_version", 457,
      ["spice"]⟩,
    ⟨"Geometry.get_profile_dir", 469,
      []⟩,
    ⟨"Geometry.verify_chord", 490,
      ["len", "list"]⟩,
    ⟨"Geometry.verify_chord.listcomp", 530,
      []⟩,
    ⟨"Geometry.verify_chord.listcomp", 531,
      []⟩,
    ⟨"Geometry.__remove_values_beyond_rings", 549,
      ["bool", "len", "np", "setattr", "type"]⟩,
    ⟨"Geometry.__remove_atmos_values", 562,
      ["bool", "len", "max", "min", "np", "print", "setattr", "str", "type"]⟩,
    ⟨"Geometry.get_chord_ind", 597,
      ["int", "len", "np", "print"]⟩]

/-- `rss_ringoccs/occgeo/occgeo_uranus.py` lines 116-392 (the lines of the definitions). -/
def m10 : Mod where
  file := "rss_ringoccs/occgeo/occgeo_uranus.py"
  names :=
    ["cog", "et_to_spm", "np", "spice", "spm_to_et", "write_history_dict",
     "write_uranus_output_files"]
  fns := [
    ⟨"Uranus_Geometry.__init__", 116,
      ["ValueError", "__file__", "cog", "et_to_spm", "float", "int", "isinstance", "len",
       "max", "min", "np", "print", "spm_to_et", "str", "type", "write_history_dict",
       "write_uranus_output_files"]⟩,
    ⟨"Uranus_Geometry.__init__.listcomp", 179,
      ["spice"]⟩,
    ⟨"Uranus_Geometry.__get_naif_version", 287,
      ["spice"]⟩,
    ⟨"Uranus_Geometry.get_profile_dir", 299,
      []⟩,
    ⟨"Uranus_Geometry.verify_chord", 321,
      ["len", "list", "print"]⟩,
    ⟨"Uranus_Geometry.verify_chord.listcomp", 342,
      []⟩,
    ⟨"Uranus_Geometry.verify_chord.listcomp", 343,
      []⟩,
    ⟨"Uranus_Geometry.__remove_atmos_values", 365,
      ["bool", "len", "max", "min", "np", "setattr", "type"]⟩,
    ⟨"Uranus_Geometry.get_chord_ind", 392,
      ["int", "len", "np", "print"]⟩]

/-- `rss_ringoccs/rsr_reader/rsr_header.py` lines 118-118 (the lines of the definitions). -/
def m11 : Mod where
  file := "rss_ringoccs/rsr_reader/rsr_header.py"
  names :=
    ["__data_header_format", "__endian", "__field_names", "__ha_format", "__ph_format",
     "__sfdu_format", "__sh_format", "np", "os", "struct"]
  fns := [
    ⟨"rsr_header", 118,
      ["FileNotFoundError", "__data_header_format", "__endian", "__field_names",
       "__ha_format", "__ph_format", "__sfdu_format", "__sh_format", "dict", "float",
       "format", "np", "open", "os", "round", "str", "struct", "zip"]⟩]

/-- `rss_ringoccs/rsr_reader/rsr_reader.py` lines 218-859 (the lines of the definitions). -/
def m12 : Mod where
  file := "rss_ringoccs/rsr_reader/rsr_reader.py"
  names :=
    ["decimate", "get_rev_info", "np", "os", "struct", "sys", "write_history_dict"]
  fns := [
    ⟨"RSRReader.__init__", 218,
      ["FileNotFoundError", "bool", "chr", "dict", "float", "int", "isinstance", "np",
       "open", "os", "print", "round", "str", "struct", "sys", "zip"]⟩,
    ⟨"RSRReader.__set_sfdu_unpack", 407,
      ["abs", "int", "np", "open", "struct"]⟩,
    ⟨"RSRReader.get_f_sky_pred", 462,
      ["TypeError", "bool", "dict", "int", "isinstance", "len", "max", "min", "np",
       "print", "range", "round", "sys", "zip"]⟩,
    ⟨"RSRReader.__set_IQ", 595,
      ["decimate", "float", "len", "max", "min", "np", "print"]⟩,
    ⟨"RSRReader.__loop", 762,
      ["dict", "float", "len", "np", "range", "zip"]⟩,
    ⟨"RSRReader.__set_history", 838,
      ["__file__", "write_history_dict"]⟩,
    ⟨"RSRReader.__set_rev_info", 859,
      ["get_rev_info"]⟩]

/-- `rss_ringoccs/rsr_reader/vgr_uranus_reader.py` lines 13-143 (the lines of the definitions). -/
def m13 : Mod where
  file := "rss_ringoccs/rsr_reader/vgr_uranus_reader.py"
  names :=
    ["hilbert", "np", "os", "sys"]
  fns := [
    ⟨"VGRUranusReader.__init__", 13,
      ["dir", "hilbert", "int", "len", "np", "os", "print", "sys"]⟩,
    ⟨"VGRUranusReader.__init__.listcomp", 21,
      []⟩,
    ⟨"VGRUranusReader.__init__.listcomp", 26,
      []⟩,
    ⟨"VGRUranusReader.__init__.listcomp", 74,
      []⟩,
    ⟨"VGRUranusReader.__init__.listcomp", 77,
      []⟩,
    ⟨"VGRUranusReader.read_vgr_uranus", 108,
      ["int", "np", "open", "range"]⟩,
    ⟨"VGRUranusReader.read_vgr_uranus.listcomp", 143,
      []⟩]

/-- `rss_ringoccs/scatter/spectro_reader.py` lines 3-21 (the lines of the definitions). -/
def m14 : Mod where
  file := "rss_ringoccs/scatter/spectro_reader.py"
  names :=
    ["np"]
  fns := [
    ⟨"read_spectro", 3,
      ["float", "int", "np", "open", "range"]⟩,
    ⟨"read_spectro.listcomp", 7,
      ["float"]⟩,
    ⟨"read_spectro.listcomp", 8,
      ["float"]⟩,
    ⟨"read_spectro.listcomp", 21,
      ["float"]⟩]

/-- `rss_ringoccs/scatter/spectrogram.py` lines 5-180 (the lines of the definitions). -/
def m15 : Mod where
  file := "rss_ringoccs/scatter/spectrogram.py"
  names :=
    ["construct_filepath", "cont_stft", "np", "spectro", "spectrogram", "stack_spec"]
  fns := [
    ⟨"cont_stft", 5,
      ["float", "len", "np", "pbar"]⟩,
    ⟨"cont_stft.listcomp", 40,
      ["abs", "np"]⟩,
    ⟨"stack_spec", 48,
      ["int", "len", "np", "range"]⟩,
    ⟨"spectro", 73,
      ["abs", "cont_stft", "float", "int", "len", "np", "spectrogram", "stack_spec"]⟩,
    ⟨"Scatter", 129,
      ["construct_filepath", "float", "len", "np", "open", "range", "spectro", "str", "zip"]⟩,
    ⟨"Scatter.genexpr", 176,
      []⟩,
    ⟨"Scatter.genexpr", 180,
      ["str"]⟩]

/-- `rss_ringoccs/tools/advanced_tools.py` lines 7-160 (the lines of the definitions). -/
def m16 : Mod where
  file := "rss_ringoccs/tools/advanced_tools.py"
  names :=
    ["error_check", "history", "numpy", "rss_ringoccs"]
  fns := [
    ⟨"CompareTau.__init__", 7,
      ["bool", "error_check", "float", "int", "numpy", "rss", "rss_ringoccs", "str"]⟩,
    ⟨"FindOptimalResolution.__init__", 85,
      ["TypeError", "all", "bool", "error_check", "float", "int", "len", "list", "numpy",
       "print", "range", "rss", "rss_ringoccs", "str"]⟩,
    ⟨"FindOptimalResolution.__init__.genexpr", 115,
      ["isinstance", "str"]⟩,
    ⟨"ModelFromGEO.__init__", 160,
      ["AttributeError", "CSV_tools", "IndexError", "NameError", "TypeError", "ValueError",
       "__file__", "bool", "complex", "error_check", "float", "history", "int",
       "isinstance", "numpy", "print", "range", "rss", "special_functions", "str", "type"]⟩]

/-- `rss_ringoccs/tools/compare.py` lines 9-150 (the lines of the definitions). -/
def m17 : Mod where
  file := "rss_ringoccs/tools/compare.py"
  names :=
    ["PdfPages", "diffrec", "gridspec", "interpolate", "np", "plt"]
  fns := [
    ⟨"compare", 9,
      ["CSV_tools", "PdfPages", "diffrec", "gridspec", "interpolate", "np", "plt"]⟩,
    ⟨"galleryplots", 150,
      ["CSV_tools", "PdfPages", "bool", "diffrec", "error_check", "float", "gridspec",
       "int", "isinstance", "len", "list", "np", "plt", "range", "str"]⟩]

/-- `rss_ringoccs/tools/create_summary_doc.py` lines 42-932 (the lines of the definitions). -/
def m18 : Mod where
  file := "rss_ringoccs/tools/create_summary_doc.py"
  names :=
    ["Earth", "PdfPages", "Rvals", "Saturn", "calc_bp", "construct_filepath",
     "latex_summary_doc", "lw1", "np", "os", "planet", "plot_bullseye",
     "plot_cal_overview", "plot_geo_overview", "plot_occ_earth_view", "plot_occ_pole_view",
     "plot_phase", "plot_tau", "plot_tau_overview", "plot_tau_zoom", "plt", "ref",
     "rings_km", "sat_radius", "savgol_filter", "spice"]
  fns := [
    ⟨"plot_bullseye", 42,
      ["np", "plt", "rings_km", "round", "sat_radius", "str"]⟩,
    ⟨"calc_bp", 105,
      ["np"]⟩,
    ⟨"plot_occ_earth_view", 119,
      ["Earth", "Rvals", "Saturn", "calc_bp", "int", "len", "lw1", "np", "planet", "plt",
       "range", "ref", "spice"]⟩,
    ⟨"plot_occ_earth_view.listcomp", 296,
      []⟩,
    ⟨"plot_occ_earth_view.listcomp", 303,
      []⟩,
    ⟨"plot_occ_pole_view", 320,
      ["Rvals", "int", "len", "lw1", "np", "planet", "plt", "range", "spice"]⟩,
    ⟨"plot_occ_pole_view.listcomp", 383,
      []⟩,
    ⟨"plot_geo_overview", 414,
      ["len", "max", "min", "np", "plt", "range", "sat_radius"]⟩,
    ⟨"plot_geo_overview.listcomp", 438,
      []⟩,
    ⟨"plot_geo_overview.listcomp", 439,
      []⟩,
    ⟨"plot_cal_overview", 570,
      ["int", "len", "max", "min", "np", "plt", "savgol_filter", "str"]⟩,
    ⟨"plot_tau_overview", 643,
      ["len", "max", "np", "plt", "savgol_filter"]⟩,
    ⟨"plot_tau", 731,
      ["int", "max", "np", "plt", "range", "round", "str"]⟩,
    ⟨"plot_tau_zoom", 798,
      ["int", "len", "max", "min", "np", "plt", "range", "round", "str"]⟩,
    ⟨"plot_phase", 876,
      ["lw1", "np", "plt", "round", "str"]⟩,
    ⟨"plot_summary_doc_v4", 932,
      ["PdfPages", "construct_filepath", "latex_summary_doc", "os", "plot_bullseye",
       "plot_cal_overview", "plot_geo_overview", "plot_occ_earth_view",
       "plot_occ_pole_view", "plot_phase", "plot_tau", "plot_tau_overview",
       "plot_tau_zoom", "print"]⟩]

/-- `rss_ringoccs/tools/create_summary_doc_v5.py` lines 43-1637 (the lines of the definitions). -/
def m19 : Mod where
  file := "rss_ringoccs/tools/create_summary_doc_v5.py"
  names :=
    ["Earth", "PdfPages", "Rvals", "Saturn", "calc_bp", "construct_filepath",
     "get_rev_info_from_dlp", "get_satellite_resonances", "latex_summary_doc", "lw1", "np",
     "os", "planet", "plot_bullseye_from_dlp_file", "plot_cal_overview",
     "plot_geo_overview_tau_file", "plot_occ_earth_view", "plot_occ_pole_view",
     "plot_phase_tau_file", "plot_tau_overview_tau_file", "plot_tau_tau_file",
     "plot_tau_zoom_tau_file_satres", "plt", "readsav", "ref", "rings_km", "sat_radius",
     "savgol_filter", "spice"]
  fns := [
    ⟨"plot_bullseye", 43,
      ["np", "plt", "rings_km", "round", "sat_radius", "str"]⟩,
    ⟨"plot_bullseye_from_dlp_file", 107,
      ["get_rev_info_from_dlp", "np", "plt", "rings_km", "round", "sat_radius", "str"]⟩,
    ⟨"calc_bp", 177,
      ["np"]⟩,
    ⟨"plot_occ_earth_view", 191,
      ["Earth", "Rvals", "Saturn", "calc_bp", "int", "len", "lw1", "np", "planet", "plt",
       "range", "ref", "spice"]⟩,
    ⟨"plot_occ_earth_view.listcomp", 363,
      []⟩,
    ⟨"plot_occ_earth_view.listcomp", 370,
      []⟩,
    ⟨"plot_occ_pole_view", 387,
      ["Rvals", "int", "len", "lw1", "np", "planet", "plt", "range", "spice"]⟩,
    ⟨"plot_occ_pole_view.listcomp", 450,
      []⟩,
    ⟨"plot_geo_overview", 480,
      ["len", "max", "min", "np", "plt", "range", "sat_radius"]⟩,
    ⟨"plot_geo_overview.listcomp", 504,
      []⟩,
    ⟨"plot_geo_overview.listcomp", 505,
      []⟩,
    ⟨"plot_geo_overview_tau_file", 632,
      ["len", "max", "min", "np", "plt", "range", "sat_radius"]⟩,
    ⟨"plot_geo_overview_tau_file.listcomp", 656,
      []⟩,
    ⟨"plot_geo_overview_tau_file.listcomp", 657,
      []⟩,
    ⟨"plot_cal_overview", 785,
      ["int", "len", "max", "min", "np", "plt", "savgol_filter", "str"]⟩,
    ⟨"plot_tau_overview", 858,
      ["len", "max", "np", "plt", "savgol_filter"]⟩,
    ⟨"plot_tau_overview_tau_file", 944,
      ["len", "max", "np", "plt", "savgol_filter"]⟩,
    ⟨"plot_tau", 1032,
      ["int", "max", "np", "plt", "range", "round", "str"]⟩,
    ⟨"plot_tau_tau_file", 1099,
      ["int", "max", "np", "plt", "range", "round", "str"]⟩,
    ⟨"plot_tau_zoom", 1169,
      ["int", "len", "max", "min", "np", "plt", "range", "round", "str"]⟩,
    ⟨"plot_tau_zoom_tau_file", 1247,
      ["int", "len", "max", "min", "np", "plt", "range", "round", "str"]⟩,
    ⟨"plot_phase", 1323,
      ["lw1", "np", "plt", "round", "str"]⟩,
    ⟨"plot_phase_tau_file", 1379,
      ["lw1", "np", "plt", "str"]⟩,
    ⟨"plot_summary_doc_v5", 1438,
      ["PdfPages", "construct_filepath", "latex_summary_doc", "os",
       "plot_bullseye_from_dlp_file", "plot_cal_overview", "plot_geo_overview_tau_file",
       "plot_occ_earth_view", "plot_occ_pole_view", "plot_phase_tau_file",
       "plot_tau_overview_tau_file", "plot_tau_tau_file", "plot_tau_zoom_tau_file_satres",
       "print"]⟩,
    ⟨"plot_tau_zoom_tau_file_satres", 1503,
      ["get_satellite_resonances", "int", "len", "max", "min", "np", "plt", "print",
       "range", "round", "str", "zip"]⟩,
    ⟨"get_satellite_resonances", 1629,
      ["np", "readsav"]⟩,
    ⟨"get_satellite_resonances.listcomp", 1637,
      []⟩]

/-- `rss_ringoccs/tools/dtau_partsize.py` lines 48-205 (the lines of the definitions). -/
def m20 : Mod where
  file := "rss_ringoccs/tools/dtau_partsize.py"
  names :=
    ["calc_dtau_pred", "dtau_int", "n", "np", "os", "ps", "simps", "tau_int"]
  fns := [
    ⟨"n", 48,
      []⟩,
    ⟨"tau_int", 60,
      ["n"]⟩,
    ⟨"dtau_int", 72,
      ["n"]⟩,
    ⟨"calc_dtau_pred", 83,
      ["dtau_int", "int", "len", "np", "open", "os", "ps", "simps", "str", "tau_int"]⟩,
    ⟨"calc_dtau_pred.genexpr", 160,
      []⟩,
    ⟨"calc_dtau_pred.genexpr", 188,
      ["round", "str"]⟩,
    ⟨"plot_dtau_grid", 205,
      ["calc_dtau_pred", "enumerate", "float", "len", "np", "os", "range", "str"]⟩]

/-- `rss_ringoccs/tools/error_check.py` lines 3-249 (the lines of the definitions). -/
def m21 : Mod where
  file := "rss_ringoccs/tools/error_check.py"
  names :=
    ["numpy"]
  fns := [
    ⟨"check_type", 3,
      ["TypeError", "isinstance", "type"]⟩,
    ⟨"check_type_and_convert", 16,
      ["TypeError", "ValueError", "isinstance", "type"]⟩,
    ⟨"check_positive", 32,
      ["TypeError", "numpy"]⟩,
    ⟨"check_non_negative", 43,
      ["TypeError", "numpy"]⟩,
    ⟨"check_two_pi", 54,
      ["TypeError", "numpy"]⟩,
    ⟨"check_range_input", 70,
      ["TypeError", "ValueError", "all", "float", "isinstance", "list", "numpy", "str"]⟩,
    ⟨"check_range_input.genexpr", 107,
      ["float", "isinstance"]⟩,
    ⟨"check_psitype", 153,
      ["TypeError", "ValueError", "int", "isinstance", "str"]⟩,
    ⟨"check_wtype", 195,
      ["TypeError", "isinstance", "str"]⟩,
    ⟨"check_lengths", 224,
      ["IndexError", "numpy"]⟩,
    ⟨"check_is_real", 237,
      ["TypeError", "numpy"]⟩,
    ⟨"check_model", 249,
      ["TypeError", "isinstance", "str"]⟩]

/-- `rss_ringoccs/tools/et_to_spm.py` lines 14-14 (the lines of the definitions). -/
def m22 : Mod where
  file := "rss_ringoccs/tools/et_to_spm.py"
  names :=
    ["np", "spice"]
  fns := [
    ⟨"et_to_spm", 14,
      ["ValueError", "float", "int", "isinstance", "len", "np", "range", "spice"]⟩]

/-- `rss_ringoccs/tools/history.py` lines 20-201 (the lines of the definitions). -/
def m23 : Mod where
  file := "rss_ringoccs/tools/history.py"
  names :=
    ["date_to_rev", "np", "os", "platform", "rev_to_occ_info", "time"]
  fns := [
    ⟨"date_to_rev", 20,
      ["list", "min", "np"]⟩,
    ⟨"date_to_rev.lambda", 110,
      ["abs"]⟩,
    ⟨"get_rev_info", 117,
      ["date_to_rev", "os", "rev_to_occ_info", "str"]⟩,
    ⟨"rev_to_occ_info", 146,
      ["ValueError", "print"]⟩,
    ⟨"write_history_dict", 201,
      ["os", "platform", "time"]⟩]

/-- `rss_ringoccs/tools/pds3_cal_series.py` lines 24-474 (the lines of the definitions). -/
def m24 : Mod where
  file := "rss_ringoccs/tools/pds3_cal_series.py"
  names :=
    ["get_cal_series_info", "os", "pds3", "time", "write_cal_series_data"]
  fns := [
    ⟨"write_cal_series_data", 24,
      ["len", "open", "print", "range"]⟩,
    ⟨"get_cal_series_info", 50,
      ["isinstance", "len", "list", "max", "min", "os", "pds3", "range", "str", "time"]⟩,
    ⟨"get_cal_series_info.listcomp", 101,
      ["os"]⟩,
    ⟨"write_cal_series", 474,
      ["get_cal_series_info", "os", "pds3", "write_cal_series_data"]⟩]

/-- `rss_ringoccs/tools/pds3_dlp_series.py` lines 20-729 (the lines of the definitions). -/
def m25 : Mod where
  file := "rss_ringoccs/tools/pds3_dlp_series.py"
  names :=
    ["get_dlp_series_info", "np", "os", "pds3", "time", "write_dlp_series_data"]
  fns := [
    ⟨"write_dlp_series_data", 20,
      ["abs", "hasattr", "len", "np", "open", "print", "range"]⟩,
    ⟨"get_dlp_series_info", 100,
      ["float", "hasattr", "len", "list", "max", "min", "np", "os", "pds3", "range",
       "round", "str", "time"]⟩,
    ⟨"write_dlp_series", 729,
      ["get_dlp_series_info", "os", "pds3", "write_dlp_series_data"]⟩]

/-- `rss_ringoccs/tools/pds3_geo_series.py` lines 20-690 (the lines of the definitions). -/
def m26 : Mod where
  file := "rss_ringoccs/tools/pds3_geo_series.py"
  names :=
    ["get_geo_series_info", "os", "pds3", "time", "write_geo_series_data"]
  fns := [
    ⟨"write_geo_series_data", 20,
      ["hasattr", "len", "open", "print", "range"]⟩,
    ⟨"get_geo_series_info", 109,
      ["hasattr", "isinstance", "len", "list", "max", "min", "os", "pds3", "range", "str",
       "time"]⟩,
    ⟨"get_geo_series_info.listcomp", 182,
      ["os"]⟩,
    ⟨"write_geo_series", 690,
      ["get_geo_series_info", "os", "pds3", "write_geo_series_data"]⟩]

/-- `rss_ringoccs/tools/pds3_tau_series.py` lines 21-1044 (the lines of the definitions). -/
def m27 : Mod where
  file := "rss_ringoccs/tools/pds3_tau_series.py"
  names :=
    ["get_tau_series_info", "np", "os", "pds3", "planetary_occultation_flag_from_dlp",
     "platform", "ring_occultation_direction_from_dlp", "ring_profile_direction_from_dlp",
     "rsr_filename_from_dlp", "set_tau_history_from_inst", "shutil", "time",
     "write_output_files", "write_tau_series_data"]
  fns := [
    ⟨"write_tau_series_data", 21,
      ["hasattr", "len", "np", "open", "print", "range", "type"]⟩,
    ⟨"get_tau_series_info", 111,
      ["float", "hasattr", "len", "list", "max", "min", "np", "os", "pds3", "range",
       "round", "str", "time"]⟩,
    ⟨"write_tau_files_from_inst", 806,
      ["os", "print", "set_tau_history_from_inst", "shutil", "write_output_files"]⟩,
    ⟨"set_tau_history_from_inst", 840,
      ["enumerate", "open", "os", "platform", "str", "time"]⟩,
    ⟨"write_tau_series", 884,
      ["get_tau_series_info", "os", "pds3", "write_tau_series_data"]⟩,
    ⟨"rsr_filename_from_dlp", 922,
      ["open", "os"]⟩,
    ⟨"planetary_occultation_flag_from_dlp", 937,
      ["open", "os"]⟩,
    ⟨"ring_occultation_direction_from_dlp", 952,
      ["open", "os"]⟩,
    ⟨"ring_profile_direction_from_dlp", 967,
      ["open", "os"]⟩,
    ⟨"get_rev_info_from_dlp", 982,
      ["os", "planetary_occultation_flag_from_dlp", "ring_occultation_direction_from_dlp",
       "ring_profile_direction_from_dlp", "rsr_filename_from_dlp"]⟩,
    ⟨"set_tau_history_from_csv", 1005,
      ["enumerate", "open", "os", "platform", "str", "time"]⟩,
    ⟨"add_psitype_to_taufiles", 1044,
      ["os", "print", "shutil"]⟩]

/-- `rss_ringoccs/tools/pds3_uranus_geo_series.py` lines 20-690 (the lines of the definitions). -/
def m28 : Mod where
  file := "rss_ringoccs/tools/pds3_uranus_geo_series.py"
  names :=
    ["get_geo_series_info", "pds3", "time", "write_geo_series_data"]
  fns := [
    ⟨"write_geo_series_data", 20,
      ["hasattr", "len", "open", "print", "range"]⟩,
    ⟨"get_geo_series_info", 109,
      ["hasattr", "isinstance", "len", "list", "max", "min", "os", "pds3", "range", "str",
       "time"]⟩,
    ⟨"get_geo_series_info.listcomp", 182,
      []⟩,
    ⟨"write_uranus_geo_series", 690,
      ["get_geo_series_info", "os", "pds3", "write_geo_series_data"]⟩]

/-- `rss_ringoccs/tools/pds3_write_series_v2.py` lines 13-437 (the lines of the definitions). -/
def m29 : Mod where
  file := "rss_ringoccs/tools/pds3_write_series_v2.py"
  names :=
    ["history_loop_over_long_inputs", "np", "os", "write_history_text"]
  fns := [
    ⟨"pds3_write_series_lbl", 13,
      ["dict", "isinstance", "len", "list", "open", "range", "str", "write_history_text"]⟩,
    ⟨"write_history_text", 240,
      ["dict", "history_loop_over_long_inputs", "isinstance", "len", "range", "str"]⟩,
    ⟨"history_loop_over_long_inputs", 327,
      ["len", "range", "str"]⟩,
    ⟨"get_ring_obs_id", 363,
      ["os"]⟩,
    ⟨"get_ring_profile_direction", 370,
      []⟩,
    ⟨"get_record_bytes", 387,
      ["int", "len", "list", "np", "range", "str"]⟩,
    ⟨"get_record_bytes.listcomp", 396,
      []⟩,
    ⟨"get_ISOD_str", 410,
      ["int", "str"]⟩,
    ⟨"get_sampling_interval", 424,
      ["print"]⟩,
    ⟨"get_spm_ref_time", 437,
      []⟩]

/-- `rss_ringoccs/tools/ring_fit.py` lines 100-355 (the lines of the definitions). -/
def m30 : Mod where
  file := "rss_ringoccs/tools/ring_fit.py"
  names :=
    ["curve_fit", "et2utc", "furnsh", "np", "os", "sys", "utc2et", "wofz"]
  fns := [
    ⟨"ring_fit.__init__", 100,
      ["abs", "curve_fit", "int", "len", "np", "os", "str", "sys"]⟩,
    ⟨"ring_fit.__init__.genexpr", 118,
      []⟩,
    ⟨"ring_fit.__init__.genexpr", 135,
      []⟩,
    ⟨"ring_fit.revinfo2utc", 291,
      ["et2utc", "furnsh", "int", "len", "os", "round", "str", "utc2et"]⟩,
    ⟨"ring_fit.__logistic", 341,
      ["np"]⟩,
    ⟨"ring_fit.__gauss", 345,
      ["np"]⟩,
    ⟨"ring_fit.__lorentz", 350,
      ["np"]⟩,
    ⟨"ring_fit.__voigt", 355,
      ["np", "wofz"]⟩]

/-- `rss_ringoccs/tools/rss_ringoccs_local_tools.py` lines 170-3842 (the lines of the definitions). -/
def m31 : Mod where
  file := "rss_ringoccs/tools/rss_ringoccs_local_tools.py"
  names :=
    ["DeltaR_inf_MTR3", "DeltaR_phi_MTR32", "add_psitype_to_taufiles", "b_MTR33",
     "calc_rho_km", "calc_rho_vec_km", "compute_tau_threshold", "data_from_inst",
     "datetime", "demo_e2e_event", "demo_e2e_event_loop", "dtau_int",
     "event_name_from_rev_info", "find_first_nan_index", "flatten_extend", "format_time",
     "get_CORSS_8001_TABfiles", "get_CORSS_8001_XKa_TABfiles", "get_CORSS_8001_file",
     "get_RSRfiles_from_web", "get_dBHz", "get_dBHz_from_rsr_file", "get_files_from_web",
     "get_kernels_from_web", "get_loaded_kernels", "get_processor_info", "get_psitype",
     "get_rev_info_from_dlp", "get_rev_info_from_tau",
     "get_trajectory_correction_coefficients", "glob", "global_path_to_data",
     "global_path_to_demo_figs", "global_path_to_kernels", "global_path_to_local_figs",
     "global_path_to_local_output", "global_path_to_local_tmp", "global_path_to_output",
     "global_path_to_tables", "interpolate", "is_res_km_valid", "kernel_is_loaded",
     "kernels_for_demo", "load_kernels_for_taufile", "min_required_dr_km_desired",
     "min_valid_res_km", "n", "np", "os", "particle_size_models", "pch", "pick_RSR_file",
     "pick_SC_kernel", "platform", "plot_comparisons", "plt", "radius_correction_pole",
     "radius_correction_pole_from_tau_inst", "radius_correction_trajectory",
     "radius_correction_trajectory_from_tau_inst", "rss", "rss_ringoccs",
     "set_tau_history", "set_tau_history_from_csv", "set_tau_history_from_inst", "shutil",
     "simpson", "spice", "spm2date", "subdivide_inversion_range", "subprocess",
     "tau_from_tau_inst", "tau_int", "time", "update_file_version",
     "update_taufile_radius_corrections", "write_output_files", "write_tau_files",
     "write_tau_files_from_inst"]
  fns := [
    ⟨"add_inversion_range_psitype", 170,
      ["int", "os", "print"]⟩,
    ⟨"add_inversion_range_psitype_to_summary", 189,
      ["int", "print", "subprocess"]⟩,
    ⟨"append_file_to_file", 219,
      ["Exception", "FileNotFoundError", "open", "print"]⟩,
    ⟨"b_MTR33", 231,
      ["np"]⟩,
    ⟨"calc_rho_km", 239,
      ["calc_rho_vec_km", "np"]⟩,
    ⟨"calc_rho_km.listcomp", 264,
      ["spice"]⟩,
    ⟨"calc_rho_vec_km", 268,
      ["len", "np", "print", "range", "spice", "str"]⟩,
    ⟨"check_substring_in_list", 381,
      []⟩,
    ⟨"compute_tau_threshold", 396,
      ["get_dBHz_from_rsr_file", "interpolate", "len", "np", "open", "print",
       "tau_from_tau_inst"]⟩,
    ⟨"compute_PDS_tau_threshold", 474,
      ["get_CORSS_8001_TABfiles", "get_CORSS_8001_file", "get_dBHz", "global_path_to_data",
       "interpolate", "np", "os", "plt", "print", "str"]⟩,
    ⟨"data_from_inst", 552,
      ["dir", "getattr", "len", "np", "print", "setattr"]⟩,
    ⟨"data_from_inst.listcomp", 576,
      []⟩,
    ⟨"data_from_inst.listcomp", 746,
      []⟩,
    ⟨"DeltaR_phi_MTR32", 755,
      ["np"]⟩,
    ⟨"DeltaR_inf_MTR3", 761,
      []⟩,
    ⟨"demo_e2e_event", 767,
      ["cal_file_dlp_file", "compute_tau_threshold", "data_from_inst",
       "get_CORSS_8001_TABfiles", "get_kernels_from_web", "global_path_to_demo_figs",
       "global_path_to_output", "global_path_to_tables", "kernels_for_demo",
       "pick_RSR_file", "pick_SC_kernel", "plot_comparisons", "print",
       "radius_correction_pole_from_tau_inst",
       "radius_correction_trajectory_from_tau_inst", "rss", "time",
       "write_tau_files_from_inst"]⟩,
    ⟨"demo_e2e_event_loop", 927,
      ["compute_tau_threshold", "data_from_inst", "get_CORSS_8001_XKa_TABfiles",
       "get_kernels_from_web", "global_path_to_output", "global_path_to_tables",
       "kernels_for_demo", "len", "min_required_dr_km_desired", "n_resfactors", "nwtype",
       "pick_RSR_file", "pick_SC_kernel", "plot_comparisons", "print",
       "radius_correction_pole_from_tau_inst",
       "radius_correction_trajectory_from_tau_inst", "range", "rss", "str", "time", "type",
       "write_tau_files", "zip"]⟩,
    ⟨"demo_Rev007_X43E_Maxwell", 1202,
      ["demo_e2e_event", "global_path_to_data", "global_path_to_kernels",
       "global_path_to_output", "global_path_to_tables"]⟩,
    ⟨"demo_Rev007_X43E_Maxwell_loop", 1235,
      ["demo_e2e_event_loop", "global_path_to_data", "global_path_to_kernels",
       "global_path_to_output", "global_path_to_tables"]⟩,
    ⟨"demo_Rev007_X43I_Maxwell", 1273,
      ["demo_e2e_event", "global_path_to_data", "global_path_to_kernels",
       "global_path_to_output", "global_path_to_tables"]⟩,
    ⟨"demo_Fring", 1305,
      ["demo_e2e_event", "global_path_to_data", "global_path_to_kernels",
       "global_path_to_output", "global_path_to_tables"]⟩,
    ⟨"demo_StrangeRinglet", 1324,
      ["demo_e2e_event", "global_path_to_data", "global_path_to_kernels",
       "global_path_to_output", "global_path_to_tables"]⟩,
    ⟨"demo_Rev133I_X25_Cripples_loop", 1343,
      ["demo_e2e_event_loop", "global_path_to_data", "global_path_to_kernels",
       "global_path_to_output", "global_path_to_tables"]⟩,
    ⟨"demo_Rev125I_X34_Cripples_loop", 1381,
      ["demo_e2e_event_loop", "global_path_to_data", "global_path_to_kernels",
       "global_path_to_output", "global_path_to_tables"]⟩,
    ⟨"demo_Rev007E_X43_W7493_loop", 1420,
      ["demo_e2e_event_loop", "global_path_to_data", "global_path_to_kernels",
       "global_path_to_output", "global_path_to_tables"]⟩,
    ⟨"demo_Rev133I_X25_W7494_loop", 1458,
      ["demo_e2e_event_loop", "global_path_to_data", "global_path_to_kernels",
       "global_path_to_output", "global_path_to_tables", "print"]⟩,
    ⟨"differential_opacity_plot", 1501,
      ["find_first_nan_index", "glob", "global_path_to_data", "global_path_to_local_figs",
       "int", "len", "np", "open", "particle_size_models", "pch", "plt", "print", "range",
       "round", "str", "zip"]⟩,
    ⟨"differential_opacity_plot.listcomp", 1516,
      []⟩,
    ⟨"differential_opacity_plot.listcomp", 1517,
      []⟩,
    ⟨"differential_opacity_plot.listcomp", 1518,
      []⟩,
    ⟨"differential_opacity_plot.listcomp", 1519,
      []⟩,
    ⟨"differential_opacity_plot.listcomp", 1529,
      ["os"]⟩,
    ⟨"differential_opacity_plot.genexpr", 1589,
      ["str"]⟩,
    ⟨"differential_opacity_plot.genexpr", 1611,
      ["str"]⟩,
    ⟨"dtau_int", 1672,
      ["n"]⟩,
    ⟨"event_name_from_rev_info", 1675,
      []⟩,
    ⟨"event_name_from_taufilepath", 1679,
      ["event_name_from_rev_info", "get_rev_info_from_tau"]⟩,
    ⟨"featurelist_to_dict", 1684,
      ["np"]⟩,
    ⟨"featurelist_to_dict.dictcomp", 1687,
      []⟩,
    ⟨"featurelist_to_dict.dictcomp", 1688,
      []⟩,
    ⟨"featurelist_to_dict.listcomp", 1689,
      ["float"]⟩,
    ⟨"featurelist_to_dict.listcomp", 1690,
      ["float"]⟩,
    ⟨"featurelist_to_dict.listcomp", 1691,
      ["float"]⟩,
    ⟨"find_first_nan_index", 1694,
      ["np"]⟩,
    ⟨"find_index", 1711,
      ["ValueError", "print"]⟩,
    ⟨"flatten_extend", 1726,
      []⟩,
    ⟨"format_time", 1735,
      []⟩,
    ⟨"get_all_RSR_files", 1747,
      ["get_RSRfiles_from_web", "open"]⟩,
    ⟨"get_all_SC_kernels", 1763,
      ["get_kernels_from_web", "len", "open"]⟩,
    ⟨"get_CORSS_8001_file", 1780,
      ["get_files_from_web"]⟩,
    ⟨"get_CORSS_8001_TABfiles", 1787,
      ["get_CORSS_8001_file", "len", "open", "print"]⟩,
    ⟨"get_CORSS_8001_XKa_TABfiles", 1830,
      ["get_CORSS_8001_file", "len", "open"]⟩,
    ⟨"get_CORSS_8001_TAUfile", 1853,
      ["Exception", "get_CORSS_8001_TABfiles", "len", "list", "print", "str", "type"]⟩,
    ⟨"get_dBHz", 1870,
      ["float", "np", "open", "os", "pick_RSR_file", "print"]⟩,
    ⟨"get_dBHz_from_rsr_file", 1890,
      ["float", "np", "open", "os", "print"]⟩,
    ⟨"get_files_from_web", 1909,
      ["os", "print", "str", "type"]⟩,
    ⟨"get_kernels_by_year_doy", 1936,
      ["open", "print"]⟩,
    ⟨"get_kernels_from_web", 1962,
      ["get_files_from_web"]⟩,
    ⟨"get_loaded_kernels", 1970,
      ["os", "range", "spice"]⟩,
    ⟨"get_processor_info", 1982,
      ["platform", "subprocess"]⟩,
    ⟨"get_psitype", 1996,
      ["open"]⟩,
    ⟨"get_rev_info_from_tau", 2007,
      ["os"]⟩,
    ⟨"get_RSRfiles_from_web", 2034,
      ["get_files_from_web"]⟩,
    ⟨"get_trajectory_correction_coefficients", 2041,
      ["float", "open", "print", "str"]⟩,
    ⟨"is_res_km_valid", 2077,
      ["Exception", "min_valid_res_km"]⟩,
    ⟨"kernel_is_loaded", 2085,
      ["get_loaded_kernels", "os"]⟩,
    ⟨"kernels_for_demo", 2092,
      ["print"]⟩,
    ⟨"load_kernels_for_taufile", 2114,
      ["get_CORSS_8001_TABfiles", "get_kernels_from_web", "get_rev_info_from_tau",
       "global_path_to_data", "global_path_to_kernels", "kernel_is_loaded",
       "kernels_for_demo", "pick_SC_kernel", "spice"]⟩,
    ⟨"merge_sorted_tabfiles", 2139,
      ["enumerate", "get_psitype", "glob", "int", "len", "load_kernels_for_taufile", "np",
       "open", "os", "print", "spm2date", "str", "update_file_version",
       "update_taufile_radius_corrections", "zip"]⟩,
    ⟨"min_required_dlp_res_km", 2348,
      []⟩,
    ⟨"min_required_dr_km_desired", 2354,
      []⟩,
    ⟨"min_valid_res_km", 2357,
      ["float"]⟩,
    ⟨"MTR86_Fig10", 2367,
      ["DeltaR_inf_MTR3", "DeltaR_phi_MTR32", "np", "plt", "print"]⟩,
    ⟨"MTR86_Fig11", 2402,
      ["DeltaR_phi_MTR32", "b_MTR33", "np", "plt", "print"]⟩,
    ⟨"MTR86_Fig11_Cassini", 2482,
      ["DeltaR_phi_MTR32", "b_MTR33", "np", "plt", "print"]⟩,
    ⟨"n", 2547,
      []⟩,
    ⟨"particle_size_models", 2549,
      ["dtau_int", "np", "ps", "simpson", "str", "tau_int", "zip"]⟩,
    ⟨"pick_SC_kernel", 2618,
      ["int", "len", "open", "print"]⟩,
    ⟨"pick_RSR_file", 2651,
      ["get_CORSS_8001_TABfiles", "get_RSRfiles_from_web", "len", "open", "os", "print"]⟩,
    ⟨"plot_comparisons", 2719,
      ["enumerate", "get_CORSS_8001_file", "min", "np", "os", "plt", "print", "str",
       "time", "type"]⟩,
    ⟨"printnow", 2874,
      ["datetime", "print"]⟩,
    ⟨"print_featurelist", 2889,
      ["print", "zip"]⟩,
    ⟨"radius_correction_pole", 2898,
      ["calc_rho_km", "get_rev_info_from_tau", "interpolate", "len", "np", "plt", "spice",
       "str"]⟩,
    ⟨"radius_correction_pole_from_tau_inst", 2971,
      ["calc_rho_km", "get_rev_info_from_dlp", "interpolate", "len", "np", "plt", "spice",
       "str"]⟩,
    ⟨"radius_correction_trajectory", 3045,
      ["calc_rho_km", "get_rev_info_from_tau", "get_trajectory_correction_coefficients",
       "interpolate", "len", "np", "plt", "spice", "str"]⟩,
    ⟨"radius_correction_trajectory_from_tau_inst", 3125,
      ["calc_rho_km", "get_rev_info_from_dlp", "get_trajectory_correction_coefficients",
       "interpolate", "len", "np", "plt", "spice", "str"]⟩,
    ⟨"rkm_tau_from_TAUfile", 3208,
      ["np"]⟩,
    ⟨"rkm_tau_drs_tanBeff_from_TAUfile", 3214,
      ["np"]⟩,
    ⟨"rkm_tau_tanBeff_from_TAUfile", 3225,
      ["np"]⟩,
    ⟨"RSRfiles_for_demo", 3234,
      []⟩,
    ⟨"runloop", 3252,
      ["CORSS_8001_filepath", "Lfeatures", "add_psitype_to_taufiles", "adjust_phase",
       "bands_ALL", "compute_tau_threshold", "dict_features", "dsns_ALL", "dsns_OMIT_63",
       "figsize", "flatten_extend", "fontsize_legend", "format_time", "get_processor_info",
       "get_rev_info_from_dlp", "glob", "global_path_to_data", "global_path_to_demo_figs",
       "global_path_to_local_figs", "global_path_to_local_output",
       "global_path_to_local_tmp", "global_path_to_output", "max", "merge_tau_files",
       "min", "np", "os", "plot_comparisons", "plot_individual", "plot_phase", "print",
       "program", "res_factor", "rss_ringoccs", "runs", "search_string",
       "set_tau_history_from_csv", "subdivide_inversion_range", "tau_from_tau_inst",
       "time", "write_output_files", "wtypes", "zip"]⟩,
    ⟨"set_tau_history", 3540,
      ["enumerate", "open", "os", "platform", "print", "set_tau_history_from_inst",
       "setattr", "str", "time"]⟩,
    ⟨"set_tau_history_from_inst", 3591,
      ["enumerate", "open", "os", "platform", "str", "time"]⟩,
    ⟨"spm2date", 3634,
      ["int"]⟩,
    ⟨"subdivide_inversion_range", 3641,
      ["min"]⟩,
    ⟨"tau_from_CSV", 3660,
      ["compute_tau_threshold", "global_path_to_demo_figs", "is_res_km_valid", "kernels",
       "plot_comparisons", "rss", "tau_from_tau_inst"]⟩,
    ⟨"tau_from_tau_inst", 3692,
      ["np"]⟩,
    ⟨"tau_int", 3702,
      ["n"]⟩,
    ⟨"trim_dlp_file", 3705,
      ["int", "np", "open", "os", "print", "shutil", "str"]⟩,
    ⟨"update_file_version", 3739,
      ["int", "len", "os", "print"]⟩,
    ⟨"update_taufile_radius_corrections", 3756,
      ["enumerate", "len", "list", "np", "open", "print", "radius_correction_pole",
       "radius_correction_trajectory", "shutil", "str"]⟩,
    ⟨"write_tau_files", 3806,
      ["os", "print", "rss", "set_tau_history", "shutil"]⟩,
    ⟨"write_tau_files_from_inst", 3842,
      ["os", "print", "rss", "set_tau_history_from_inst", "shutil"]⟩]

/-- `rss_ringoccs/tools/satellite_tools.py` lines 20-567 (the lines of the definitions). -/
def m32 : Mod where
  file := "rss_ringoccs/tools/satellite_tools.py"
  names :=
    ["amodulo", "arctan", "calc_dr_Titan", "calc_dr_Titan_vec", "calc_titan_longitude_ET",
     "freq", "freq_n0", "global_path_to_kernels", "interpolate", "moyen_mouvement", "np",
     "posi_geo", "precess", "spice"]
  fns := [
    ⟨"moyen_mouvement", 20,
      ["np"]⟩,
    ⟨"precess", 35,
      ["np"]⟩,
    ⟨"freq", 60,
      []⟩,
    ⟨"freq_n0", 76,
      []⟩,
    ⟨"arctan", 87,
      ["np"]⟩,
    ⟨"amodulo", 106,
      []⟩,
    ⟨"geo_posi", 114,
      ["cos", "freq", "moyen_mouvement", "np", "precess"]⟩,
    ⟨"posi_geo", 213,
      ["amodulo", "arctan", "freq", "freq_n0", "moyen_mouvement", "np", "precess", "print"]⟩,
    ⟨"calc_titan_longitude", 442,
      ["calc_titan_longitude_ET", "spice"]⟩,
    ⟨"calc_titan_longitude_ET", 446,
      ["moyen_mouvement", "np", "posi_geo", "precess", "spice"]⟩,
    ⟨"calc_dr_Titan", 511,
      ["calc_titan_longitude_ET", "np"]⟩,
    ⟨"calc_dr_Titan_vec", 538,
      ["calc_dr_Titan", "interpolate", "len", "np", "zip"]⟩,
    ⟨"calc_dr_Titan_from_taufile", 567,
      ["calc_dr_Titan_vec", "global_path_to_kernels", "np", "spice"]⟩]

/-- `rss_ringoccs/tools/spm_to_et.py` lines 15-15 (the lines of the definitions). -/
def m33 : Mod where
  file := "rss_ringoccs/tools/spm_to_et.py"
  names :=
    ["np", "spice", "sys"]
  fns := [
    ⟨"spm_to_et", 15,
      ["float", "int", "isinstance", "len", "np", "os", "range", "spice", "str", "sys"]⟩]

/-- `rss_ringoccs/tools/sys_tools.py` lines 19-94 (the lines of the definitions). -/
def m34 : Mod where
  file := "rss_ringoccs/tools/sys_tools.py"
  names :=
    ["error_check", "make_executable", "os", "shell_execute", "subprocess", "time"]
  fns := [
    ⟨"shell_execute", 19,
      ["error_check", "list", "print", "str", "subprocess"]⟩,
    ⟨"date_string", 70,
      ["time"]⟩,
    ⟨"make_executable", 85,
      ["error_check", "os", "str"]⟩,
    ⟨"latex_summary_doc", 94,
      ["error_check", "float", "int", "len", "make_executable", "open", "os", "range",
       "shell_execute", "str"]⟩]

/-- `rss_ringoccs/tools/write_output_files.py` lines 34-224 (the lines of the definitions). -/
def m35 : Mod where
  file := "rss_ringoccs/tools/write_output_files.py"
  names :=
    ["construct_filepath", "construct_output_filename", "func_typ", "os", "rss", "strftime"]
  fns := [
    ⟨"write_output_files", 34,
      ["TypeError", "construct_output_filename", "int", "isinstance", "print", "rss", "str"]⟩,
    ⟨"construct_filepath", 93,
      ["int", "len", "max", "os", "print", "str", "strftime", "type"]⟩,
    ⟨"construct_filepath.listcomp", 177,
      []⟩,
    ⟨"construct_filepath.listcomp", 186,
      []⟩,
    ⟨"construct_filepath.listcomp", 193,
      ["int"]⟩,
    ⟨"construct_output_filename", 224,
      ["construct_filepath", "func_typ", "len", "print", "range"]⟩]

/-- `rss_ringoccs/tools/write_uranus_output_files.py` lines 30-123 (the lines of the definitions). -/
def m36 : Mod where
  file := "rss_ringoccs/tools/write_uranus_output_files.py"
  names :=
    ["chord_revnums", "construct_filepath", "construct_output_filename", "func_typ", "os",
     "rss", "strftime"]
  fns := [
    ⟨"write_uranus_output_files", 30,
      ["TypeError", "construct_output_filename", "int", "isinstance", "rss", "str"]⟩,
    ⟨"construct_filepath", 54,
      ["chord_revnums", "len", "os", "print", "str", "strftime"]⟩,
    ⟨"construct_filepath.listcomp", 88,
      []⟩,
    ⟨"construct_filepath.listcomp", 95,
      []⟩,
    ⟨"construct_filepath.listcomp", 100,
      ["int"]⟩,
    ⟨"construct_output_filename", 123,
      ["construct_filepath", "func_typ", "len", "range"]⟩]

/-- `rss_ringoccs/tools/write_vgr1_saturn_output_files.py` lines 29-107 (the lines of the definitions). -/
def m37 : Mod where
  file := "rss_ringoccs/tools/write_vgr1_saturn_output_files.py"
  names :=
    ["construct_filepath", "construct_output_filename", "func_typ", "os", "rss", "strftime"]
  fns := [
    ⟨"write_vgr1_saturn_output_files", 29,
      ["construct_output_filename", "int", "isinstance", "print", "rss", "str"]⟩,
    ⟨"construct_filepath", 56,
      ["len", "os", "print", "str", "strftime"]⟩,
    ⟨"construct_filepath.listcomp", 75,
      []⟩,
    ⟨"construct_filepath.listcomp", 82,
      []⟩,
    ⟨"construct_filepath.listcomp", 87,
      ["int"]⟩,
    ⟨"construct_output_filename", 107,
      ["construct_filepath", "func_typ", "len", "range"]⟩]

/-- All modules of the package with functions. -/
def modules : List Mod := [
  m00, m01, m02, m03, m04, m05, m06, m07, m08, m09, m10, m11,
  m12, m13, m14, m15, m16, m17, m18, m19, m20, m21, m22, m23,
  m24, m25, m26, m27, m28, m29, m30, m31, m32, m33, m34, m35,
  m36, m37]

end Verif.Names
