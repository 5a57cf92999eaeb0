/-!
# Model: the error messages of the C code

All places in src and rss_ringoccs/crssringoccs where an `error_message` is set to something other than NULL (the tables are transcribed from the
source, the line is that of the assignment), and the buffers in which a message is put together.
-/
namespace Verif.Msg

/-- The characters of a literal. -/
macro "chars!" s:str : term => do
  let cs := s.getString.toList.map Lean.Syntax.mkCharLit
  `([$(cs.toArray),*])

/-- The types with a member `error_message`: include/types/rss_ringoccs_geocsv.h 64, rss_ringoccs_dlpcsv.h 58,
rss_ringoccs_calcsv.h 48, include/rss_ringoccs_csv_tools.h 64, 102, 128, 165, 196 (the tables and the two collections),
include/rss_ringoccs_calibration.h 33 (`DLPObj`) and
include/types/rss_ringoccs_tauobj.h 85 (`recon`, the reconstruction). -/
inductive Kind
  | geo | dlp | cal | tau | udlp | merged | csv | ucsv | obj | recon
  deriving DecidableEq, Repr

/-- An assignment of a literal, directly or (`heap`) through `tmpl_String_Duplicate` or `tmpl_strdup`.  When `vars` is not empty, the assignment is in a
macro with the parameter `#var` between the two texts, used for these members. -/
structure Put where
  file : String
  line : Nat
  func : List Char
  kind : Kind
  heap : Bool
  pre : List Char
  vars : List (List Char) := []
  post : List Char := []

/-- The texts of an assignment. -/
def Put.texts (p : Put) : List (List Char) := if p.vars = [] then [p.pre] else p.vars.map fun v => p.pre ++ v ++ p.post

/-- An assignment of a copy of a buffer of `cap` characters, filled before by `sprintf` with the text `pre ++ "%s" ++ post` and the message of an object of
the type `frm`. -/
structure Site where
  file : String
  line : Nat
  func : List Char
  kind : Kind
  cap : Nat
  frm : Kind
  pre : List Char

/-- `sprintf(buffer, pre "%s", m)`: the characters and the terminating zero, or a write behind the end of the buffer. -/
inductive Filled
  | text (s : List Char)
  | overflow
  deriving DecidableEq, Repr

/-- C standard 7.21.6.6, for the sites of `sites`, e.g. src/csv_tools/rss_ringoccs_csv_data_extract_geo.c 50-59. -/
def sprintf (cap : Nat) (pre m : List Char) : Filled := if pre.length + m.length + 1 ≤ cap then .text (pre ++ m) else .overflow

/-- Does destroying an object free the message?  src/csv_tools/rss_ringoccs_csv_data_destroy.c 55-61, rss_ringoccs_uranus_csv_data_destroy.c 55-61,
rss_ringoccs_merged_csv_data_destroy.c 55-61, rss_ringoccs_uranus_dlp_csv_destroy.c 55-61; not rss_ringoccs_geo_csv_destroy.c 62-64,
rss_ringoccs_dlp_csv_destroy.c 62-64, rss_ringoccs_cal_csv_destroy.c 62-64, rss_ringoccs_tau_csv_destroy.c 46-57; for a `DLPObj`
rss_ringoccs/crssringoccs/diffraction_correction/crssringoccs_diffraction_correction_init.c 223; not src/tau/rss_ringoccs_tau_destroy.c 45-59. -/
def freed : Kind → Bool
  | .csv | .ucsv | .merged | .udlp | .obj => true
  | .geo | .dlp | .cal | .tau | .recon => false

/-- The lines of the message with the strings that are allowed: src/tau/rss_ringoccs_tau_set_psi_type.c 206-442. -/
def psiTextLines : List (List Char) := [chars!"\n",
  chars!"Error Encountered: rss_ringoccs\n",
  chars!"    rssringoccs_Tau_Set_Psi_Type\n",
  chars!"\n",
  chars!"Illegal string for psitype. Allowed strings:\n",
  chars!"    Newton Riemann:\n",
  chars!"        Newton-Raphson method using a Riemann sum for the integral.\n",
  chars!"        This is inaccurate for data sets where d psi / d rho is large,\n",
  chars!"        and the Filon method should be used instead.\n",
  chars!"    Newton Filon 01:\n",
  chars!"        Newton-Raphson method using a modified linear Filon quadrature\n",
  chars!"        for the integral. The data 'T' is assumed constant across each bin\n",
  chars!"        and the Fresnel phase 'psi' is fitted to a line psi = ax + b.\n",
  chars!"        That is, T uses a degree 0 approximation and psi uses degree 1.\n",
  chars!"    Newton Filon 11:\n",
  chars!"        Newton-Raphson method using a modified linear Filon quadrature\n",
  chars!"        for the integral. The data 'T' and the Fresnel phase 'psi' are\n",
  chars!"        both assumed linear across a bin, T = ax + b, psi = cx + d.\n",
  chars!"        That is, T uses a degree 1 approximation and psi uses degree 1.\n",
  chars!"    Newton Filon 02:\n",
  chars!"        Newton-Raphson method using a modified quadratic Filon quadrature\n",
  chars!"        for the integral. The data 'T' is assumed constant across each bin\n",
  chars!"        and the Fresnel phase 'psi' is fitted to a quadratic across two\n",
  chars!"        bins, psi = a * (x - b)^2 + c. That is, T uses a degree 0\n",
  chars!"        approximation and psi uses degree 2.\n",
  chars!"    Newton Filon 12:\n",
  chars!"        Newton-Raphson method using a modified quadratic Filon quadrature\n",
  chars!"        for the integral. The data 'T' is assumed linear across each bin,\n",
  chars!"        T = A * x + B, and the Fresnel phase 'psi' is fitted to a quadratic\n",
  chars!"        across two bins, psi = a * (x - b)^2 + c. That is, T uses a degree 1\n",
  chars!"        approximation and psi uses degree 2.\n",
  chars!"    Newton Perturb:\n",
  chars!"        Same as Newton Quadratic Filon, but an arbitrary quartic is\n",
  chars!"        allowed for perturbing the stationary Fresnel phase (psi).\n",
  chars!"        This may be set at the python level using the perturb keyword.\n",
  chars!"    Newton 4:\n",
  chars!"        Newton-Raphson method using a quadratic Filon quadrature with a\n",
  chars!"        quartic interpolation of the Fresnel phase across the window.\n",
  chars!"    Newton 8:\n",
  chars!"        Newton-Raphson method using a quadratic Filon quadrature with an\n",
  chars!"        octic interpolation of the Fresnel phase across the window.\n",
  chars!"    Newton 16:\n",
  chars!"        Newton-Raphson method using a quadratic Filon quadrature with a\n",
  chars!"        hexadecic interpolation of the Fresnel phase across the window.\n",
  chars!"    Simple FFT:\n",
  chars!"        Use a single FFT of the entire data set. This is very fast, but\n",
  chars!"        it assumes the geometry is nearly constant for the entire data\n",
  chars!"        set. Only use this for small ranges, or sets with stable geometry.\n",
  chars!"    Ellipse:\n",
  chars!"        Newton-Raphson method using the elliptical perturbation. This is\n",
  chars!"        useful for elliptical rings.\n",
  chars!"    Fresnel:\n",
  chars!"        Classic quadratic Fresnel approximation. This is the fastest\n",
  chars!"        method, but it is not applicable to many data sets.\n",
  chars!"        Rev007 from Cassini and the Voyager 2 Uranus data are examples\n",
  chars!"        of ideal sets. For Cassini's Rev133 this method is unusable.\n",
  chars!"    Fresnel n:\n",
  chars!"        Legendre polynomial approximation with 3 < n < 256. Like the\n",
  chars!"        Fresnel method, this is only applicable to certain data sets.\n",
  chars!"        Use this when the opening angle is large. It is nearly as fast as\n",
  chars!"        the Fresnel method, but more accurate when it is applicable.\n",
  chars!"\n",
  chars!"Note:\n",
  chars!"    Input strings are neither case nor space sensitive. You may add\n",
  chars!"    or remove spaces, and use upper case or lower case letters.\n"]

/-- The message. -/
def psiText : List Char := psiTextLines.flatten

/-- The lines of the message with the strings that are allowed: src/tau/rss_ringoccs_tau_set_range_from_string.c 149-217. -/
def rangeTextLines : List (List Char) := [chars!"\n",
  chars!"\rError Encountered: rss_ringoccs\n",
  chars!"\r\trssringoccs_Tau_Get_Range_From_String\n",
  chars!"\n",
  chars!"\rIllegal string for range. Allowed strings are:\n",
  chars!"\r\tall               [1.0, 400000.0]\n",
  chars!"\r\tbesselbarnard     [120210.0, 120330.0]\n",
  chars!"\r\tbessel-barnard    [120210.0, 120330.0]\n",
  chars!"\r\tcringripples      [77690.0, 77760.0]\n",
  chars!"\r\tencke             [132900.0, 134200.0]\n",
  chars!"\r\tenckegap          [132900.0, 134200.0]\n",
  chars!"\r\therschel          [118100.0, 118380.0]\n",
  chars!"\r\therschelgap       [118100.0, 118380.0]\n",
  chars!"\r\thuygens           [117650.0, 117950.0]\n",
  chars!"\r\thuygensringlet    [117650.0, 117950.0]\n",
  chars!"\r\tjanusepimetheus   [96200.0, 96800.0]\n",
  chars!"\r\tjeffreys          [118900.0, 119000.0]\n",
  chars!"\r\tjeffreysgap       [118900.0, 119000.0]\n",
  chars!"\r\tkuiper            [119300.0, 119500.0]\n",
  chars!"\r\tkuipergap         [119300.0, 119500.0]\n",
  chars!"\r\tmaxwell           [87410.0, 87610.0]\n",
  chars!"\r\tmaxwellringlet    [87410.0, 87610.0]\n",
  chars!"\r\trussell           [118550.0, 118660.0]\n",
  chars!"\r\trussellgap        [118550.0, 118660.0]\n",
  chars!"\r\ttitan             [77870.0, 77930.0]\n",
  chars!"\r\ttitanringlet      [77870.0, 77930.0]\n",
  chars!"\n"]

/-- The message. -/
def rangeText : List Char := rangeTextLines.flatten

/-- The lines of the message with the strings that are allowed: src/tau/rss_ringoccs_tau_set_window_type.c 89-100. -/
def windowTextLines : List (List Char) := [chars!"\n",
  chars!"\rError Encountered: rss_ringoccs\n",
  chars!"\r\trssringoccs_Tau_Set_WType\n",
  chars!"\n",
  chars!"\r\tIllegal string for wtype. Allowed strings are:\n",
  chars!"\r\t\trect:    Rectangular Window\n",
  chars!"\r\t\tcoss:    Squared Cosine Window\n",
  chars!"\r\t\tkb20:    Kaiser-Bessel with alpha = 2.0 pi\n",
  chars!"\r\t\tkb25:    Kaiser-Bessel with alpha = 2.5 pi\n",
  chars!"\r\t\tkb35:    Kaiser-Bessel with alpha = 3.5 pi\n",
  chars!"\r\t\tkbmd20:  Modified Kaiser-Bessel with alpha = 2.0 pi\n",
  chars!"\r\t\tkbmd25:  Modified Kaiser-Bessel with alpha = 2.5 pi\n",
  chars!"\r\t\tkbmd35:  Modified Kaiser-Bessel with alpha = 3.5 pi\n",
  chars!"\n"]

/-- The message. -/
def windowText : List Char := windowTextLines.flatten

/-- The messages of this type, in rss_ringoccs/crssringoccs/auxiliary/crssringoccs_c_tau_to_py_tau.c 61, rss_ringoccs/crssringoccs/auxiliary/crssringoccs_get_py_vars_from_tau_self.c 39, rss_ringoccs/crssringoccs/diffraction_correction/crssringoccs_get_py_perturbation.c 58, 87, 102, rss_ringoccs/crssringoccs/diffraction_correction/crssringoccs_get_py_range.c 47, 76, 99, 114, src/fresnel_transform/rss_ringoccs_tau_select_newton_interp_transform.c 21, 32, 43, src/fresnel_transform/rss_ringoccs_tau_select_newton_transform.c 21, 32, 43, src/model/rss_ringoccs_tau_model_left_straightedge.c 32, 43, 104, 132, src/model/rss_ringoccs_tau_model_right_straightedge.c 26, 37, src/model/rss_ringoccs_tau_model_sine_wave.c 31, 42, 80, 108, src/reconstruction/rss_ringoccs_diffraction_correction.c 31, src/reconstruction/rss_ringoccs_diffraction_correction_fresnel.c 380, src/reconstruction/rss_ringoccs_diffraction_correction_legendre.c 191, src/reconstruction/rss_ringoccs_diffraction_correction_newton.c 95, 138, src/reconstruction/rss_ringoccs_diffraction_correction_polynomial_newton.c 98, 115, src/reconstruction/rss_ringoccs_diffraction_correction_simple_fft.c 101, src/reconstruction/rss_ringoccs_reconstruction.c 61, src/tau/rss_ringoccs_tau_check_allan_deviation.c 25, 37, 49, src/tau/rss_ringoccs_tau_check_azimuth_angle.c 102, 117, 129. -/
def putsRecon0 : List Put := [
  { file := "rss_ringoccs/crssringoccs/auxiliary/crssringoccs_c_tau_to_py_tau.c", line := 61, func := chars!"crssringoccs_C_Tau_To_Py_Tau", kind := .recon, heap := false,
    pre := chars!"\n\rError Encountered: rss_ringoccs\n\r\tcrssringoccs_C_Tau_To_Py_Tau\n\n\rInput py_tau is NULL.n" },
  { file := "rss_ringoccs/crssringoccs/auxiliary/crssringoccs_get_py_vars_from_tau_self.c", line := 39, func := chars!"crssringoccs_Get_Py_Vars_From_Tau_Self", kind := .recon, heap := false,
    pre := chars!"\n\rError Encountered: rss_ringoccs\n\r\tcrssringoccs_Get_Py_Vars_From_Tau_Self\n\n\rInput self is NULL.n" },
  { file := "rss_ringoccs/crssringoccs/diffraction_correction/crssringoccs_get_py_perturbation.c", line := 58, func := chars!"crssringoccs_Get_Py_Perturb", kind := .recon, heap := false,
    pre := chars!"\rError Encountered: rss_ringoccs\n\r\trssringoccs_Get_Py_Perturb\n\n\rInput perturb is a list but does not have 5 entries.\n\rperturb must be a list of five real numbers.\n" },
  { file := "rss_ringoccs/crssringoccs/diffraction_correction/crssringoccs_get_py_perturbation.c", line := 87, func := chars!"crssringoccs_Get_Py_Perturb", kind := .recon, heap := false,
    pre := chars!"\rError Encountered: rss_ringoccs\n\r\trssringoccs_Get_Py_Perturb\n\n\rInput perturb has entries that are not real numbers.\n\rAll entries for the perturb list must be numbers.\n" },
  { file := "rss_ringoccs/crssringoccs/diffraction_correction/crssringoccs_get_py_perturbation.c", line := 102, func := chars!"crssringoccs_Get_Py_Perturb", kind := .recon, heap := false,
    pre := chars!"\rError Encountered: rss_ringoccs\n\r\trssringoccs_Get_Py_Perturb\n\n\rInput perturb is not a list.\n" },
  { file := "rss_ringoccs/crssringoccs/diffraction_correction/crssringoccs_get_py_range.c", line := 47, func := chars!"crssringoccs_Get_Py_Range", kind := .recon, heap := false,
    pre := chars!"\n\rError Encountered: rss_ringoccs\n\r\trssringoccs_C_Tau_to_Py_Tau\n\n\rInput rngreq is NULL. Aborting.\n\n" },
  { file := "rss_ringoccs/crssringoccs/diffraction_correction/crssringoccs_get_py_range.c", line := 76, func := chars!"crssringoccs_Get_Py_Range", kind := .recon, heap := false,
    pre := chars!"\rError Encountered: rss_ringoccs\n\r\trssringoccs_Get_Py_Range\n\n\rInput range is a list but does not have 2 entries.\n\rrng must be a list of two real numbers.\n\n" },
  { file := "rss_ringoccs/crssringoccs/diffraction_correction/crssringoccs_get_py_range.c", line := 99, func := chars!"crssringoccs_Get_Py_Range", kind := .recon, heap := false,
    pre := chars!"\rError Encountered: rss_ringoccs\n\r\trssringoccs_Get_Py_Range\n\n\rInput rng has entries that are not real numbers.\n\rBoth entries for the rng list must be numbers.\n\n" },
  { file := "rss_ringoccs/crssringoccs/diffraction_correction/crssringoccs_get_py_range.c", line := 114, func := chars!"crssringoccs_Get_Py_Range", kind := .recon, heap := false,
    pre := 
      (chars!"\n" ++
      chars!"\rError Encountered: rss_ringoccs\n" ++
      chars!"\r\trssringoccs_Get_Py_Range\n" ++
      chars!"\n" ++
      chars!"\rrng must be a list of two real numbers or a string.\n" ++
      chars!"\rAllowed strings are:\n" ++
      chars!"\r\tall               [1.0, 400000.0]\n" ++
      chars!"\r\tbesselbarnard     [120210.0, 120330.0]\n" ++
      chars!"\r\tbessel-barnard    [120210.0, 120330.0]\n" ++
      chars!"\r\tcringripples      [77690.0, 77760.0]\n" ++
      chars!"\r\tencke             [132900.0, 134200.0]\n" ++
      chars!"\r\tenckegap          [132900.0, 134200.0]\n" ++
      chars!"\r\therschel          [118100.0, 118380.0]\n" ++
      chars!"\r\therschelgap       [118100.0, 118380.0]\n" ++
      chars!"\r\thuygens           [117650.0, 117950.0]\n" ++
      chars!"\r\thuygensringlet    [117650.0, 117950.0]\n" ++
      chars!"\r\tjanusepimetheus   [96200.0, 96800.0]\n" ++
      chars!"\r\tjeffreys          [118900.0, 119000.0]\n" ++
      chars!"\r\tjeffreysgap       [118900.0, 119000.0]\n" ++
      chars!"\r\tkuiper            [119300.0, 119500.0]\n" ++
      chars!"\r\tkuipergap         [119300.0, 119500.0]\n" ++
      chars!"\r\tmaxwell           [87410.0, 87610.0]\n" ++
      chars!"\r\tmaxwellringlet    [87410.0, 87610.0]\n" ++
      chars!"\r\trussell           [118550.0, 118660.0]\n" ++
      chars!"\r\trussellgap        [118550.0, 118660.0]\n" ++
      chars!"\r\ttitan             [77870.0, 77930.0]\n" ++
      chars!"\r\ttitanringlet      [77870.0, 77930.0]\n" ++
      chars!"\n") },
  { file := "src/fresnel_transform/rss_ringoccs_tau_select_newton_interp_transform.c", line := 21, func := chars!"rssringoccs_Tau_Select_Newton_Interp_Transform", kind := .recon, heap := false,
    pre := chars!"\n\rError Encountered: rss_ringoccs\n\r\trssringoccs_Tau_Select_Newton_Transform\n\n\rpsinum is set to None type.\n" },
  { file := "src/fresnel_transform/rss_ringoccs_tau_select_newton_interp_transform.c", line := 32, func := chars!"rssringoccs_Tau_Select_Newton_Interp_Transform", kind := .recon, heap := false,
    pre := chars!"\n\rError Encountered: rss_ringoccs\n\r\trssringoccs_Tau_Select_Newton_Transform\n\n\rpsinum is not a Newton type.\n" },
  { file := "src/fresnel_transform/rss_ringoccs_tau_select_newton_interp_transform.c", line := 43, func := chars!"rssringoccs_Tau_Select_Newton_Interp_Transform", kind := .recon, heap := false,
    pre := chars!"\n\rError Encountered: rss_ringoccs\n\r\trssringoccs_Tau_Select_Newton_Transform\n\n\rpsinum is set to a Newton transform, not an\n\rinterpolated Newton transform.\n" },
  { file := "src/fresnel_transform/rss_ringoccs_tau_select_newton_transform.c", line := 21, func := chars!"rssringoccs_Tau_Select_Newton_Transform", kind := .recon, heap := false,
    pre := chars!"\n\rError Encountered: rss_ringoccs\n\r\trssringoccs_Tau_Select_Newton_Transform\n\n\rpsinum is set to None type.\n" },
  { file := "src/fresnel_transform/rss_ringoccs_tau_select_newton_transform.c", line := 32, func := chars!"rssringoccs_Tau_Select_Newton_Transform", kind := .recon, heap := false,
    pre := chars!"\n\rError Encountered: rss_ringoccs\n\r\trssringoccs_Tau_Select_Newton_Transform\n\n\rpsinum is not a Newton type.\n" },
  { file := "src/fresnel_transform/rss_ringoccs_tau_select_newton_transform.c", line := 43, func := chars!"rssringoccs_Tau_Select_Newton_Transform", kind := .recon, heap := false,
    pre := chars!"\n\rError Encountered: rss_ringoccs\n\r\trssringoccs_Tau_Select_Newton_Transform\n\n\rpsinum is set to an interpolated Newton transform,\n\rnot a Newton transform.\n" },
  { file := "src/model/rss_ringoccs_tau_model_left_straightedge.c", line := 32, func := chars!"rssringoccs_Tau_Model_Left_Straightedge", kind := .recon, heap := false,
    pre := chars!"\n\rError Encountered: rss_ringoccs\n\r\trssringoccs_Tau_Model_Left_Straightedge\n\n\rparameters pointer is NULL.\n\n" },
  { file := "src/model/rss_ringoccs_tau_model_left_straightedge.c", line := 43, func := chars!"rssringoccs_Tau_Model_Left_Straightedge", kind := .recon, heap := false,
    pre := chars!"\n\rError Encountered: rss_ringoccs\n\r\trssringoccs_Tau_Model_Left_Straightedge\n\n\rModel type is not set to rssringoccs_Model_LeftEdge.\n\n" },
  { file := "src/model/rss_ringoccs_tau_model_left_straightedge.c", line := 104, func := chars!"rssringoccs_Tau_Model_Left_Straightedge", kind := .recon, heap := false,
    pre := chars!"\n\rError Encountered: rss_ringoccs\n\r\trssringoccs_Reconstruction\n\n\rNot enough data available to perform the forward model.\n\rReturning with T_fwd pointer set to an array of zeroes.\n" },
  { file := "src/model/rss_ringoccs_tau_model_left_straightedge.c", line := 132, func := chars!"rssringoccs_Tau_Model_Left_Straightedge", kind := .recon, heap := false,
    pre := chars!"\n\rError Encountered: rss_ringoccs\n\r\trssringoccs_Reconstruction\n\n\rNot enough data available to perform the forward model.\n\rReturning with T_fwd pointer set to an array of zeroes.\n" },
  { file := "src/model/rss_ringoccs_tau_model_right_straightedge.c", line := 26, func := chars!"rssringoccs_Tau_Model_Right_Straightedge", kind := .recon, heap := false,
    pre := chars!"\n\rError Encountered: rss_ringoccs\n\r\trssringoccs_Tau_Model_Right_Straightedge\n\n\rparameters pointer is NULL.\n\n" },
  { file := "src/model/rss_ringoccs_tau_model_right_straightedge.c", line := 37, func := chars!"rssringoccs_Tau_Model_Right_Straightedge", kind := .recon, heap := false,
    pre := chars!"\n\rError Encountered: rss_ringoccs\n\r\trssringoccs_Tau_Model_Right_Straightedge\n\n\rModel type is not set to rssringoccs_Model_RightEdge.\n\n" },
  { file := "src/model/rss_ringoccs_tau_model_sine_wave.c", line := 31, func := chars!"rssringoccs_Tau_Model_Sine_Wave", kind := .recon, heap := false,
    pre := chars!"\n\rError Encountered: rss_ringoccs\n\r\trssringoccs_Tau_Model_Left_Straightedge\n\n\rparameters pointer is NULL.\n\n" },
  { file := "src/model/rss_ringoccs_tau_model_sine_wave.c", line := 42, func := chars!"rssringoccs_Tau_Model_Sine_Wave", kind := .recon, heap := false,
    pre := chars!"\n\rError Encountered: rss_ringoccs\n\r\trssringoccs_Tau_Model_Left_Straightedge\n\n\rModel type is not set to rssringoccs_Model_LeftEdge.\n\n" },
  { file := "src/model/rss_ringoccs_tau_model_sine_wave.c", line := 80, func := chars!"rssringoccs_Tau_Model_Sine_Wave", kind := .recon, heap := false,
    pre := chars!"\n\rError Encountered: rss_ringoccs\n\r\trssringoccs_Reconstruction\n\n\rNot enough data available to perform the forward model.\n\rReturning with T_fwd pointer set to an array of zeroes.\n" },
  { file := "src/model/rss_ringoccs_tau_model_sine_wave.c", line := 108, func := chars!"rssringoccs_Tau_Model_Sine_Wave", kind := .recon, heap := false,
    pre := chars!"\n\rError Encountered: rss_ringoccs\n\r\trssringoccs_Reconstruction\n\n\rNot enough data available to perform the forward model.\n\rReturning with T_fwd pointer set to an array of zeroes.\n" },
  { file := "src/reconstruction/rss_ringoccs_diffraction_correction.c", line := 31, func := chars!"rssringoccs_Diffraction_Correction", kind := .recon, heap := false,
    pre := chars!"\n\rError Encountered: rss_ringoccs\n\r\trssringoccs_Reconstruction\n\n\rpsinum is set to rssringoccs_PsiType_None.\n\rNo valid psitype requested.\n" },
  { file := "src/reconstruction/rss_ringoccs_diffraction_correction_fresnel.c", line := 380, func := chars!"rssringoccs_Diffraction_Correction_Fresnel", kind := .recon, heap := false,
    pre := chars!"\n\rError Encountered: rss_ringoccs\n\r\trssringoccs_Diffraction_Correction_Fresnel\n\n\rMalloc failed and returned NULL.\n\n" },
  { file := "src/reconstruction/rss_ringoccs_diffraction_correction_legendre.c", line := 191, func := chars!"rssringoccs_Diffraction_Correction_Legendre", kind := .recon, heap := false,
    pre := chars!"\n\rError Encountered: rss_ringoccs\n\r\trssringoccs_Diffraction_Correction_Fast_Legendre\n\n\rmalloc failed and returned NULL. Aborting.\n\n" },
  { file := "src/reconstruction/rss_ringoccs_diffraction_correction_newton.c", line := 95, func := chars!"rssringoccs_Diffraction_Correction_Newton", kind := .recon, heap := false,
    pre := chars!"\n\rError Encountered: rss_ringoccs\n\r\trssringoccs_Diffraction_Correction_Newton\n\n\rrssringoccs_Tau_Select_Newton_Transform returned NULL.\n\rRequested psitype not implemented yet.\n" },
  { file := "src/reconstruction/rss_ringoccs_diffraction_correction_newton.c", line := 138, func := chars!"rssringoccs_Diffraction_Correction_Newton", kind := .recon, heap := false,
    pre := chars!"\n\rError Encountered: rss_ringoccs\n\r\trssringoccs_Diffraction_Correction_Newton\n\n\rmalloc returned NULL for w_func.\n" },
  { file := "src/reconstruction/rss_ringoccs_diffraction_correction_polynomial_newton.c", line := 98, func := chars!"rssringoccs_Diffraction_Correction_Polynomial_Newton", kind := .recon, heap := false,
    pre := chars!"\n\rError Encountered: rss_ringoccs\n\r\trssringoccs_Diffraction_Correction_Newton\n\n\rrssringoccs_Tau_Select_Newton_Transform returned NULL.\n\rRequested psitype not implemented yet.\n" },
  { file := "src/reconstruction/rss_ringoccs_diffraction_correction_polynomial_newton.c", line := 115, func := chars!"rssringoccs_Diffraction_Correction_Polynomial_Newton", kind := .recon, heap := false,
    pre := chars!"\n\rError Encountered: rss_ringoccs\n\r\trssringoccs_Diffraction_Correction_Newton\n\n\rmalloc returned NULL for w_func.\n" },
  { file := "src/reconstruction/rss_ringoccs_diffraction_correction_simple_fft.c", line := 101, func := chars!"rssringoccs_Diffraction_Correction_SimpleFFT", kind := .recon, heap := false,
    pre := chars!"\n\rError Encountered: rss_ringoccs\n\r\trssringoccs_Diffraction_Correction_SimpleFFT\n\n\rmalloc returned NULL.\n" },
  { file := "src/reconstruction/rss_ringoccs_reconstruction.c", line := 61, func := chars!"rssringoccs_Reconstruction", kind := .recon, heap := false,
    pre := chars!"\n\rError Encountered: rss_ringoccs\n\r\trssringoccs_Reconstruction\n\n\rNot enough data available to perform the forward model.\n\rReturning with T_fwd pointer set to an array of zeroes.\n" },
  { file := "src/tau/rss_ringoccs_tau_check_allan_deviation.c", line := 25, func := chars!"rssringoccs_Tau_Check_Allan_Deviation", kind := .recon, heap := false,
    pre := chars!"\n\rError Encountered: rss_ringoccs\n\r\trssringoccs_Tau_Check_Allan_Deviation\n\n\rAllan deviation is NaN (Not-a-Number).\n\n" },
  { file := "src/tau/rss_ringoccs_tau_check_allan_deviation.c", line := 37, func := chars!"rssringoccs_Tau_Check_Allan_Deviation", kind := .recon, heap := false,
    pre := chars!"\n\rError Encountered: rss_ringoccs\n\r\trssringoccs_Tau_Check_Allan_Deviation\n\n\rAllan deviation is infinite.\n\n" },
  { file := "src/tau/rss_ringoccs_tau_check_allan_deviation.c", line := 49, func := chars!"rssringoccs_Tau_Check_Allan_Deviation", kind := .recon, heap := false,
    pre := chars!"\n\rError Encountered: rss_ringoccs\n\r\trssringoccs_Tau_Check_Allan_Deviation\n\n\rInput sigma (Allen deviation) is not positive.\n\n" },
  { file := "src/tau/rss_ringoccs_tau_check_azimuth_angle.c", line := 102, func := chars!"rssringoccs_Tau_Check_Azimuth_Angle", kind := .recon, heap := false,
    pre := chars!"\n\rError Encountered: rss_ringoccs\n\r\trssringoccs_Tau_Check_Azimuth_Angle\n\n\rphi_deg_vals is NULL.\n\n" },
  { file := "src/tau/rss_ringoccs_tau_check_azimuth_angle.c", line := 117, func := chars!"rssringoccs_Tau_Check_Azimuth_Angle", kind := .recon, heap := false,
    pre := chars!"\n\rError Encountered: rss_ringoccs\n\r\trssringoccs_Tau_Check_Azimuth_Angle\n\n\rAzimuth angle (phi) contains NaN values.\n\n" },
  { file := "src/tau/rss_ringoccs_tau_check_azimuth_angle.c", line := 129, func := chars!"rssringoccs_Tau_Check_Azimuth_Angle", kind := .recon, heap := false,
    pre := chars!"\n\rError Encountered: rss_ringoccs\n\r\trssringoccs_Tau_Check_Azimuth_Angle\n\n\rAzimuth angle (phi) contains infinite values.\n\n" }]

/-- The messages of this type, in src/tau/rss_ringoccs_tau_check_azimuth_angle.c 142, 154, src/tau/rss_ringoccs_tau_check_core_data.c 77, src/tau/rss_ringoccs_tau_check_data_range.c 116, 129, 161, 180, src/tau/rss_ringoccs_tau_check_displacement.c 91, 103, 117, 132, src/tau/rss_ringoccs_tau_check_eccentricity.c 25, 37, 49, src/tau/rss_ringoccs_tau_check_occ_type.c 98, 110, 122, 139, 159, 180, src/tau/rss_ringoccs_tau_check_opening_angle.c 98, 114, 126, src/tau/rss_ringoccs_tau_check_periapse.c 25, 37, 49, 61, src/tau/rss_ringoccs_tau_check_range.c 25, 37, 49, 61, 73, 85, src/tau/rss_ringoccs_tau_check_resolution.c 89, 101, 113, src/tau/rss_ringoccs_tau_check_ring_distance.c 98, 113, src/tau/rss_ringoccs_tau_check_ring_radius.c 97, 112. -/
def putsRecon1 : List Put := [
  { file := "src/tau/rss_ringoccs_tau_check_azimuth_angle.c", line := 142, func := chars!"rssringoccs_Tau_Check_Azimuth_Angle", kind := .recon, heap := false,
    pre := chars!"\n\rError Encountered: rss_ringoccs\n\r\trssringoccs_Tau_Check_Azimuth_Angle\n\n\rAzimuth angle (phi) has values less than -360 degrees.\n\n" },
  { file := "src/tau/rss_ringoccs_tau_check_azimuth_angle.c", line := 154, func := chars!"rssringoccs_Tau_Check_Azimuth_Angle", kind := .recon, heap := false,
    pre := chars!"\n\rError Encountered: rss_ringoccs\n\r\trssringoccs_Tau_Check_Azimuth_Angle\n\n\rAzimuth angle (phi) has angles greater than +360 degrees.\n\n" },
  { file := "src/tau/rss_ringoccs_tau_check_core_data.c", line := 77, func := chars!"rssringoccs_Tau_Check_Core_Data", kind := .recon, heap := false,
    pre := chars!"\n\rError Encountered: rss_ringoccs\n\r\trssringoccs_Tau_Check_Core_Data\n\n\rInput tau has ",
    vars := [chars!"T_in", chars!"T_out", chars!"rho_km_vals", chars!"F_km_vals", chars!"phi_deg_vals", chars!"k_vals", chars!"rho_dot_kms_vals", chars!"B_deg_vals", chars!"D_km_vals", chars!"w_km_vals", chars!"rx_km_vals", chars!"ry_km_vals", chars!"rz_km_vals"], post := chars!" set to NULL.\n\n" },
  { file := "src/tau/rss_ringoccs_tau_check_data_range.c", line := 116, func := chars!"rssringoccs_Tau_Check_Data_Range", kind := .recon, heap := false,
    pre := chars!"\n\rError Encountered: rss_ringoccs\n\r\trssringoccs_Tau_Check_Data_Range\n\n\rtau->w_km_vals is NULL.\n\n" },
  { file := "src/tau/rss_ringoccs_tau_check_data_range.c", line := 129, func := chars!"rssringoccs_Tau_Check_Data_Range", kind := .recon, heap := false,
    pre := chars!"\n\rError Encountered: rss_ringoccs\n\r\trssringoccs_Tau_Check_Data_Range\n\n\rtau->dx_km is not positive.\n\n" },
  { file := "src/tau/rss_ringoccs_tau_check_data_range.c", line := 161, func := chars!"rssringoccs_Tau_Check_Data_Range", kind := .recon, heap := false,
    pre := chars!"\n\rError Encountered: rss_ringoccs\n\r\trssringoccs_Tau_Check_Data_Range\n\n\rNot enough data to perform diffraction correction. The\n\rrequested region has points with a window width that go\n\rbeyond the minimum radius available.\n\n" },
  { file := "src/tau/rss_ringoccs_tau_check_data_range.c", line := 180, func := chars!"rssringoccs_Tau_Check_Data_Range", kind := .recon, heap := false,
    pre := chars!"\n\rError Encountered: rss_ringoccs\n\r\trssringoccs_Tau_Check_Data_Range\n\n\rNot enough data to perform diffraction correction. The\n\rrequested region has points with a window width that go\n\rbeyond the maximum radius available.\n\n" },
  { file := "src/tau/rss_ringoccs_tau_check_displacement.c", line := 91, func := chars!"rssringoccs_Tau_Check_Displacement", kind := .recon, heap := false,
    pre := chars!"\n\rError Encountered: rss_ringoccs\n\r\trssringoccs_Tau_Check_Displacement\n\n\rdx_km is NaN (Not-a-Number).\n\n" },
  { file := "src/tau/rss_ringoccs_tau_check_displacement.c", line := 103, func := chars!"rssringoccs_Tau_Check_Displacement", kind := .recon, heap := false,
    pre := chars!"\n\rError Encountered: rss_ringoccs\n\r\trssringoccs_Tau_Check_Displacement\n\n\rdx_km is infinite.\n\n" },
  { file := "src/tau/rss_ringoccs_tau_check_displacement.c", line := 117, func := chars!"rssringoccs_Tau_Check_Displacement", kind := .recon, heap := false,
    pre := chars!"\n\rError Encountered: rss_ringoccs\n\r\trssringoccs_Tau_Check_Displacement\n\n\rdx_km = rho_km_vals[1] - rho_km_vals[0] = 0.\n\n" },
  { file := "src/tau/rss_ringoccs_tau_check_displacement.c", line := 132, func := chars!"rssringoccs_Tau_Check_Displacement", kind := .recon, heap := false,
    pre := chars!"\n\rError Encountered: rss_ringoccs\n\r\trssringoccs_Tau_Check_Displacement\n\n\rResolution is less than twice the sample spacing.\n\rThis will result in an inaccurate reconstruction.\n\n" },
  { file := "src/tau/rss_ringoccs_tau_check_eccentricity.c", line := 25, func := chars!"rssringoccs_Tau_Check_Eccentricity", kind := .recon, heap := false,
    pre := chars!"\n\rError Encountered: rss_ringoccs\n\r\trssringoccs_Tau_Check_Eccentricity\n\n\reccentricity is NaN (Not-a-Number).\n\n" },
  { file := "src/tau/rss_ringoccs_tau_check_eccentricity.c", line := 37, func := chars!"rssringoccs_Tau_Check_Eccentricity", kind := .recon, heap := false,
    pre := chars!"\n\rError Encountered: rss_ringoccs\n\r\trssringoccs_Tau_Check_Eccentricity\n\n\reccentricity is infinite.\n\n" },
  { file := "src/tau/rss_ringoccs_tau_check_eccentricity.c", line := 49, func := chars!"rssringoccs_Tau_Check_Eccentricity", kind := .recon, heap := false,
    pre := chars!"\n\rError Encountered: rss_ringoccs\n\r\trssringoccs_Tau_Check_Eccentricity\n\n\rInput eccentricity is negative.\n\n" },
  { file := "src/tau/rss_ringoccs_tau_check_occ_type.c", line := 98, func := chars!"rssringoccs_Tau_Check_Occ_Type", kind := .recon, heap := false,
    pre := chars!"\n\rError Encountered: rss_ringoccs\n\r\trssringoccs_Tau_Check_Occ_Type\n\n\rInput rho_dot_kms_vals is NULL.\n\n" },
  { file := "src/tau/rss_ringoccs_tau_check_occ_type.c", line := 110, func := chars!"rssringoccs_Tau_Check_Occ_Type", kind := .recon, heap := false,
    pre := chars!"\n\rError Encountered: rss_ringoccs\n\r\trssringoccs_Tau_Check_Occ_Type\n\n\rInput arrays have less than 2 points.\n\n" },
  { file := "src/tau/rss_ringoccs_tau_check_occ_type.c", line := 122, func := chars!"rssringoccs_Tau_Check_Occ_Type", kind := .recon, heap := false,
    pre := chars!"\n\rError Encountered: rss_ringoccs\n\r\trssringoccs_Tau_Check_Occ_Type\n\n\rdx_km is zero. Impossible to determine occultation type.\n\n" },
  { file := "src/tau/rss_ringoccs_tau_check_occ_type.c", line := 139, func := chars!"rssringoccs_Tau_Check_Occ_Type", kind := .recon, heap := false,
    pre := chars!"\n\rError Encountered: rss_ringoccs\n\r\trssringoccs_Tau_Check_Occ_Type\n\n\r\tdrho/dt has positive and negative values.\n\r\tYour input file is probably a chord occultation.\n\r\tDiffraction Correction can only be performed for\n\r\tone event at a time. That is, ingress or egress.\n\n\r\tTO CORRECT THIS:\n\r\t\tSplit the input into two parts: Ingress and Engress\n\r\t\tand perform diffraction correction on each part.\n\n" },
  { file := "src/tau/rss_ringoccs_tau_check_occ_type.c", line := 159, func := chars!"rssringoccs_Tau_Check_Occ_Type", kind := .recon, heap := false,
    pre := chars!"\n\rError Encountered: rss_ringoccs\n\r\trssringoccs_Tau_Check_Occ_Type\n\n\r\tdrho/dt has zero valued elements.\n\r\tYour input file is probably a chord occultation.\n\r\tDiffraction Correction can only be performed for\n\r\tone event at a time. That is, ingress or egress.\n\n\r\tTO CORRECT THIS:\n\r\t\tSplit the input into two parts: Ingress and Engress\n\r\t\tand perform diffraction correction on each part.\n\n" },
  { file := "src/tau/rss_ringoccs_tau_check_occ_type.c", line := 180, func := chars!"rssringoccs_Tau_Check_Occ_Type", kind := .recon, heap := false,
    pre := chars!"\n\rError Encountered: rss_ringoccs\n\r\trssringoccs_Tau_Check_Occ_Type\n\n\n\rError Encountered: rss_ringoccs\n\r\tdiffrec.DiffractionCorrection\n\n\r\trho_km_vals is decreasing yet rho_dot_kms_vals\n\r\tis positiive. Check DLP data for errors.\n\n" },
  { file := "src/tau/rss_ringoccs_tau_check_opening_angle.c", line := 98, func := chars!"rssringoccs_Tau_Check_Opening_Angle", kind := .recon, heap := false,
    pre := chars!"\n\rError Encountered: rss_ringoccs\n\r\trssringoccs_Tau_Check_Opening_Angle\n\n\rB_deg_vals is NULL.\n\n" },
  { file := "src/tau/rss_ringoccs_tau_check_opening_angle.c", line := 114, func := chars!"rssringoccs_Tau_Check_Opening_Angle", kind := .recon, heap := false,
    pre := chars!"\n\rError Encountered: rss_ringoccs\n\r\trssringoccs_Tau_Check_Opening_Angle\n\n\rOpening angle (B) has values less than -360 degrees.\n\n" },
  { file := "src/tau/rss_ringoccs_tau_check_opening_angle.c", line := 126, func := chars!"rssringoccs_Tau_Check_Opening_Angle", kind := .recon, heap := false,
    pre := chars!"\n\rError Encountered: rss_ringoccs\n\r\trssringoccs_Tau_Check_Opening_Angle\n\n\rOpening angle (B) has angles greater than +360 degrees.\n\n" },
  { file := "src/tau/rss_ringoccs_tau_check_periapse.c", line := 25, func := chars!"rssringoccs_Tau_Check_Periapse", kind := .recon, heap := false,
    pre := chars!"\n\rError Encountered: rss_ringoccs\n\r\trssringoccs_Tau_Check_Periapse\n\n\rperiapse is NaN (Not-a-Number).\n\n" },
  { file := "src/tau/rss_ringoccs_tau_check_periapse.c", line := 37, func := chars!"rssringoccs_Tau_Check_Periapse", kind := .recon, heap := false,
    pre := chars!"\n\rError Encountered: rss_ringoccs\n\r\trssringoccs_Tau_Check_Periapse\n\n\rperiapse is infinite.\n\n" },
  { file := "src/tau/rss_ringoccs_tau_check_periapse.c", line := 49, func := chars!"rssringoccs_Tau_Check_Periapse", kind := .recon, heap := false,
    pre := chars!"\n\rError Encountered: rss_ringoccs\n\r\trssringoccs_Tau_Check_Keywords\n\n\rInput periapse less than -2pi.\n\n" },
  { file := "src/tau/rss_ringoccs_tau_check_periapse.c", line := 61, func := chars!"rssringoccs_Tau_Check_Periapse", kind := .recon, heap := false,
    pre := chars!"\n\rError Encountered: rss_ringoccs\n\r\trssringoccs_Tau_Check_Keywords\n\n\rInput periapse greater than 2pi.\n\n" },
  { file := "src/tau/rss_ringoccs_tau_check_range.c", line := 25, func := chars!"rssringoccs_Tau_Check_Range", kind := .recon, heap := false,
    pre := chars!"\n\rError Encountered: rss_ringoccs\n\r\trssringoccs_Tau_Check_Range\n\n\rrange[0] is NaN (Not-a-Number).\n\n" },
  { file := "src/tau/rss_ringoccs_tau_check_range.c", line := 37, func := chars!"rssringoccs_Tau_Check_Range", kind := .recon, heap := false,
    pre := chars!"\n\rError Encountered: rss_ringoccs\n\r\trssringoccs_Tau_Check_Range\n\n\rrange[1] is NaN (Not-a-Number).\n\n" },
  { file := "src/tau/rss_ringoccs_tau_check_range.c", line := 49, func := chars!"rssringoccs_Tau_Check_Range", kind := .recon, heap := false,
    pre := chars!"\n\rError Encountered: rss_ringoccs\n\r\trssringoccs_Tau_Check_Range\n\n\rrange[0] is infinite.\n\n" },
  { file := "src/tau/rss_ringoccs_tau_check_range.c", line := 61, func := chars!"rssringoccs_Tau_Check_Range", kind := .recon, heap := false,
    pre := chars!"\n\rError Encountered: rss_ringoccs\n\r\trssringoccs_Tau_Check_Range\n\n\rrange[1] is infinite.\n\n" },
  { file := "src/tau/rss_ringoccs_tau_check_range.c", line := 73, func := chars!"rssringoccs_Tau_Check_Range", kind := .recon, heap := false,
    pre := chars!"\n\rError Encountered: rss_ringoccs\n\r\trssringoccs_Tau_Check_Range\n\n\rStarting value for range is negative.\n\n" },
  { file := "src/tau/rss_ringoccs_tau_check_range.c", line := 85, func := chars!"rssringoccs_Tau_Check_Range", kind := .recon, heap := false,
    pre := chars!"\n\rError Encountered: rss_ringoccs\n\r\trssringoccs_Tau_Check_Range\n\n\rStarting value for range is greater than final value.\n\n" },
  { file := "src/tau/rss_ringoccs_tau_check_resolution.c", line := 89, func := chars!"rssringoccs_Tau_Check_Resolution", kind := .recon, heap := false,
    pre := chars!"\n\rError Encountered: rss_ringoccs\n\r\trssringoccs_Tau_Check_Resolution\n\n\rdx_km is NaN (Not-a-Number).\n\n" },
  { file := "src/tau/rss_ringoccs_tau_check_resolution.c", line := 101, func := chars!"rssringoccs_Tau_Check_Resolution", kind := .recon, heap := false,
    pre := chars!"\n\rError Encountered: rss_ringoccs\n\r\trssringoccs_Tau_Check_Resolution\n\n\rdx_km is infinite.\n\n" },
  { file := "src/tau/rss_ringoccs_tau_check_resolution.c", line := 113, func := chars!"rssringoccs_Tau_Check_Resolution", kind := .recon, heap := false,
    pre := chars!"\n\rError Encountered: rss_ringoccs\n\r\trssringoccs_Tau_Check_Resolution\n\n\rInput resolution is not positive.\n\n" },
  { file := "src/tau/rss_ringoccs_tau_check_ring_distance.c", line := 98, func := chars!"rssringoccs_Tau_Check_Ring_Distance", kind := .recon, heap := false,
    pre := chars!"\n\rError Encountered: rss_ringoccs\n\r\trssringoccs_Tau_Check_Ring_Distance\n\n\rD_km_vals is NULL.\n\n" },
  { file := "src/tau/rss_ringoccs_tau_check_ring_distance.c", line := 113, func := chars!"rssringoccs_Tau_Check_Ring_Distance", kind := .recon, heap := false,
    pre := chars!"\n\rError Encountered: rss_ringoccs\n\r\trssringoccs_Tau_Check_Ring_Distance\n\n\rDistance to rings (D_km_vals) has non-positive values.\n\n" },
  { file := "src/tau/rss_ringoccs_tau_check_ring_radius.c", line := 97, func := chars!"rssringoccs_Tau_Check_Ring_Radius", kind := .recon, heap := false,
    pre := chars!"\n\rError Encountered: rss_ringoccs\n\r\trssringoccs_Tau_Check_Ring_Radius\n\n\rrho_km_vals is NULL.\n\n" },
  { file := "src/tau/rss_ringoccs_tau_check_ring_radius.c", line := 112, func := chars!"rssringoccs_Tau_Check_Ring_Radius", kind := .recon, heap := false,
    pre := chars!"\n\rError Encountered: rss_ringoccs\n\r\trssringoccs_Tau_Check_Ring_Radius\n\n\rRing radius (rho_km_vals) has non-positive values.\n\n" }]

/-- The messages of this type, in src/tau/rss_ringoccs_tau_compute_data_from_dlp_members.c 56, 69, 82, src/tau/rss_ringoccs_tau_copy_dlp_data.c 107, 120, 133, src/tau/rss_ringoccs_tau_copy_dlp_members.c 32, 45, 58, src/tau/rss_ringoccs_tau_create_from_dlp.c 28, 41, 53, src/tau/rss_ringoccs_tau_get_window_width.c 38, 66, 88, 160, 198, 218, 229, src/tau/rss_ringoccs_tau_malloc_members.c 19, 34, 56, src/tau/rss_ringoccs_tau_resize_half_window.c 32, 63, 84, 115, src/tau/rss_ringoccs_tau_set_psi_type.c 43, 60, 146, 160, 191, src/tau/rss_ringoccs_tau_set_range_from_string.c 39, 138, src/tau/rss_ringoccs_tau_set_window_type.c 22, 35, 89. -/
def putsRecon2 : List Put := [
  { file := "src/tau/rss_ringoccs_tau_compute_data_from_dlp_members.c", line := 56, func := chars!"rssringoccs_Tau_Compute_Data_From_DLP_Members", kind := .recon, heap := false,
    pre := chars!"\n\rError Encountered: rss_ringoccs\n\r\trssringoccs_Tau_Compute_Data_From_DLP_Members\n\n\rInput DLP object is NULL. Aborting.\n\n" },
  { file := "src/tau/rss_ringoccs_tau_compute_data_from_dlp_members.c", line := 69, func := chars!"rssringoccs_Tau_Compute_Data_From_DLP_Members", kind := .recon, heap := false,
    pre := chars!"\n\rError Encountered: rss_ringoccs\n\r\trssringoccs_Tau_Compute_Data_From_DLP_Members\n\n\rInput DLP object has error_occurred = True.\n\n" },
  { file := "src/tau/rss_ringoccs_tau_compute_data_from_dlp_members.c", line := 82, func := chars!"rssringoccs_Tau_Compute_Data_From_DLP_Members", kind := .recon, heap := false,
    pre := chars!"\n\rError Encountered: rss_ringoccs\n\r\trssringoccs_Tau_Compute_Data_From_DLP_Members\n\n\rDLP array size is not equal to Tau array size.\n\n" },
  { file := "src/tau/rss_ringoccs_tau_copy_dlp_data.c", line := 107, func := chars!"rssringoccs_Tau_Copy_DLP_Data", kind := .recon, heap := false,
    pre := chars!"\n\rError Encountered: rss_ringoccs\n\r\trssringoccs_Tau_Copy_DLP_Data\n\n\rInput dlp pointer is NULL.\n\n" },
  { file := "src/tau/rss_ringoccs_tau_copy_dlp_data.c", line := 120, func := chars!"rssringoccs_Tau_Copy_DLP_Data", kind := .recon, heap := false,
    pre := chars!"\n\rError Encountered: rss_ringoccs\n\r\trssringoccs_Tau_Copy_DLP_Data\n\n\rInput dlp error_occurred set to True.\n" },
  { file := "src/tau/rss_ringoccs_tau_copy_dlp_data.c", line := 133, func := chars!"rssringoccs_Tau_Copy_DLP_Data", kind := .recon, heap := false,
    pre := chars!"\n\rError Encountered: rss_ringoccs\n\r\trssringoccs_Tau_Copy_DLP_Data\n\n\rdlp->arr_size < 2, arrays have less than 2 points.\n\n" },
  { file := "src/tau/rss_ringoccs_tau_copy_dlp_members.c", line := 32, func := chars!"rssringoccs_Tau_Copy_DLP_Members", kind := .recon, heap := false,
    pre := chars!"\n\rError Encountered: rss_ringoccs\n\r\trssringoccs_Tau_Copy_DLP_Members\n\n\rInput DLP object is NULL. Aborting.\n\n" },
  { file := "src/tau/rss_ringoccs_tau_copy_dlp_members.c", line := 45, func := chars!"rssringoccs_Tau_Copy_DLP_Members", kind := .recon, heap := false,
    pre := chars!"\n\rError Encountered: rss_ringoccs\n\r\trssringoccs_Tau_Copy_DLP_Members\n\n\rInput DLP object has error_occurred = True.\n\n" },
  { file := "src/tau/rss_ringoccs_tau_copy_dlp_members.c", line := 58, func := chars!"rssringoccs_Tau_Copy_DLP_Members", kind := .recon, heap := false,
    pre := chars!"\n\rError Encountered: rss_ringoccs\n\r\trssringoccs_Tau_Copy_DLP_Members\n\n\rDLP array size is not equal to Tau array size.\n\n" },
  { file := "src/tau/rss_ringoccs_tau_create_from_dlp.c", line := 28, func := chars!"rssringoccs_Tau_Create_From_DLP", kind := .recon, heap := false,
    pre := chars!"\n\rError Encountered: rss_ringoccs\n\r\trssringoccs_Tau_Create_From_DLP\n\n\rInput dlp is NULL.\n\n" },
  { file := "src/tau/rss_ringoccs_tau_create_from_dlp.c", line := 41, func := chars!"rssringoccs_Tau_Create_From_DLP", kind := .recon, heap := false,
    pre := chars!"\n\rError Encountered: rss_ringoccs\n\r\trssringoccs_Tau_Create_From_DLP\n\n\rInput dlp has error_occurred set to true.\n\n" },
  { file := "src/tau/rss_ringoccs_tau_create_from_dlp.c", line := 53, func := chars!"rssringoccs_Tau_Create_From_DLP", kind := .recon, heap := false,
    pre := chars!"\n\rError Encountered: rss_ringoccs\n\r\trssringoccs_Tau_Create_From_DLP\n\n\rInput resolution is not positive.\n\n" },
  { file := "src/tau/rss_ringoccs_tau_get_window_width.c", line := 38, func := chars!"rssringoccs_Tau_Get_Window_Width", kind := .recon, heap := false,
    pre := chars!"\n\rError Encountered: rss_ringoccs\n\r\trssringoccs_Tau_Get_Window_Width\n\n\rMinimum requested radius is greater than the largest\n\rradius available in the data.\n\n" },
  { file := "src/tau/rss_ringoccs_tau_get_window_width.c", line := 66, func := chars!"rssringoccs_Tau_Get_Window_Width", kind := .recon, heap := false,
    pre := chars!"\n\rError Encountered: rss_ringoccs\n\r\trssringoccs_Tau_Get_Window_Width\n\n\rMinimum requested radius is greater than the largest\n\rradius available in the data.\n\n" },
  { file := "src/tau/rss_ringoccs_tau_get_window_width.c", line := 88, func := chars!"rssringoccs_Tau_Get_Window_Width", kind := .recon, heap := false,
    pre := chars!"\rError Encountered: rss_ringoccs\n\r\trssringoccs_Tau_Get_Window_Width\n\n\rtau->w_km_vals is not NULL. You have either already processed\n\rthe window width or did not create the rssringoccs_TAUObj\n\rpointer with rssringoccs_Create_TAUObj.\n\n" },
  { file := "src/tau/rss_ringoccs_tau_get_window_width.c", line := 160, func := chars!"rssringoccs_Tau_Get_Window_Width", kind := .recon, heap := false,
    pre := chars!"\rError Encountered: rss_ringoccs\n\r\trssringoccs_Tau_Get_Window_Width\n\n\rThe window width is too large to reconstruct anything.\n\rThere is not enough data to the left of any point. That is,\n\rrho_km_vals[n] - w_km_vals[n]/2 is less than rho_km_vals[0]\n\rfor all n. Returning with error.\n\n" },
  { file := "src/tau/rss_ringoccs_tau_get_window_width.c", line := 198, func := chars!"rssringoccs_Tau_Get_Window_Width", kind := .recon, heap := false,
    pre := chars!"\rError Encountered: rss_ringoccs\n\r\trssringoccs_Tau_Get_Window_Width\n\n\rThe window width is too large to reconstruct anything.\n\rThere is not enough data to the left of any point. That is,\n\rrho_km_vals[n] + w_km_vals[n]/2 is less than rho_km_vals[0]\n\rfor all n.\n\n" },
  { file := "src/tau/rss_ringoccs_tau_get_window_width.c", line := 218, func := chars!"rssringoccs_Tau_Get_Window_Width", kind := .recon, heap := false,
    pre := chars!"\rError Encountered: rss_ringoccs\n\r\trssringoccs_Tau_Get_Window_Width\n\n\rStarting index (start) is greater than the size of the array.\n" },
  { file := "src/tau/rss_ringoccs_tau_get_window_width.c", line := 229, func := chars!"rssringoccs_Tau_Get_Window_Width", kind := .recon, heap := false,
    pre := chars!"\rError Encountered: rss_ringoccs\n\r\trssringoccs_Tau_Get_Window_Width\n\n\rFinal index (start+n_used) is greater than size of array.\n\n" },
  { file := "src/tau/rss_ringoccs_tau_malloc_members.c", line := 19, func := chars!"rssringoccs_Tau_Malloc_Members", kind := .recon, heap := false,
    pre := chars!"\n\rError Encountered: rss_ringoccs\n\r\trssringoccs_Tau_Malloc_Members\n\n\r",
    vars := [chars!"rho_km_vals", chars!"phi_deg_vals", chars!"k_vals", chars!"rho_dot_kms_vals", chars!"B_deg_vals", chars!"D_km_vals", chars!"t_oet_spm_vals", chars!"t_ret_spm_vals", chars!"t_set_spm_vals", chars!"rho_corr_pole_km_vals", chars!"rho_corr_timing_km_vals", chars!"phi_rl_deg_vals", chars!"rx_km_vals", chars!"ry_km_vals", chars!"rz_km_vals", chars!"T_in", chars!"F_km_vals"], post := chars!" is not NULL. It is likely you've already set the data\n\rfor this tau object. Returning.\n" },
  { file := "src/tau/rss_ringoccs_tau_malloc_members.c", line := 34, func := chars!"rssringoccs_Tau_Malloc_Members", kind := .recon, heap := false,
    pre := chars!"\n\rError Encountered: rss_ringoccs\n\r\trssringoccs_Tau_Malloc_Members\n\n\rMalloc failed and returned NULL for ",
    vars := [chars!"rho_km_vals", chars!"phi_deg_vals", chars!"k_vals", chars!"rho_dot_kms_vals", chars!"B_deg_vals", chars!"D_km_vals", chars!"t_oet_spm_vals", chars!"t_ret_spm_vals", chars!"t_set_spm_vals", chars!"rho_corr_pole_km_vals", chars!"rho_corr_timing_km_vals", chars!"phi_rl_deg_vals", chars!"rx_km_vals", chars!"ry_km_vals", chars!"rz_km_vals", chars!"T_in", chars!"F_km_vals"], post := chars!".\n\n" },
  { file := "src/tau/rss_ringoccs_tau_malloc_members.c", line := 56, func := chars!"rssringoccs_Tau_Malloc_Members", kind := .recon, heap := false,
    pre := chars!"\n\rError Encountered: rss_ringoccs\n\r\trssringoccs_Tau_Malloc_Members\n\n\rInput tau has arr_size = zero. Nothing to allocate.\n\n" },
  { file := "src/tau/rss_ringoccs_tau_resize_half_window.c", line := 32, func := chars!"rssringoccs_Tau_Resize_Half_Window", kind := .recon, heap := false,
    pre := chars!"\n\rError Encountered: rss_ringoccs\n\r\trssringoccs_Tau_Check_And_Resize_Window\n\n\rInput pointers are NULL. Aborting.\n\n" },
  { file := "src/tau/rss_ringoccs_tau_resize_half_window.c", line := 63, func := chars!"rssringoccs_Tau_Resize_Half_Window", kind := .recon, heap := true,
    pre := chars!"\n\rError Encountered: rss_ringoccs\n\r\trssringoccs_Tau_Check_And_Resize_Window\n\n\rInput pointers are pointing to NULL pointers. Aborting.\n\n" },
  { file := "src/tau/rss_ringoccs_tau_resize_half_window.c", line := 84, func := chars!"rssringoccs_Tau_Resize_Half_Window", kind := .recon, heap := false,
    pre := chars!"\n\rError Encountered: rss_ringoccs\n\r\trssringoccs_Tau_Check_And_Resize_Window\n\n\rrealloc failed and returned NULL for x_arr.\n\n" },
  { file := "src/tau/rss_ringoccs_tau_resize_half_window.c", line := 115, func := chars!"rssringoccs_Tau_Resize_Half_Window", kind := .recon, heap := false,
    pre := chars!"\n\rError Encountered: rss_ringoccs\n\r\trssringoccs_Tau_Check_And_Resize_Window\n\n\rrealloc failed and returned NULL for w_func.\n\n" },
  { file := "src/tau/rss_ringoccs_tau_set_psi_type.c", line := 43, func := chars!"rssringoccs_Tau_Set_Psi_Type", kind := .recon, heap := false,
    pre := chars!"\rError Encountered: rss_ringoccs\n\r\trssringoccs_Tau_Set_Psi_Type\n\n\rInput string is NULL. Returning.\n\n" },
  { file := "src/tau/rss_ringoccs_tau_set_psi_type.c", line := 60, func := chars!"rssringoccs_Tau_Set_Psi_Type", kind := .recon, heap := false,
    pre := chars!"\rError Encountered: rss_ringoccs\n\r\trssringoccs_Tau_Set_Psi_Type\n\n\rtmpl_String_Duplicate returned NULL.\n\n" },
  { file := "src/tau/rss_ringoccs_tau_set_psi_type.c", line := 146, func := chars!"rssringoccs_Tau_Set_Psi_Type", kind := .recon, heap := false,
    pre := chars!"\n\rError Encountered: rss_ringoccs\n\r\trssringoccs_Tau_Set_Psi_Type\n\n\rCould not parse psitype. tmpl_String_To_UChar returned\n\rzero. Your input has 'fresnel' in it but either has an\n\rinvalid entry after, or a zero.\n\n" },
  { file := "src/tau/rss_ringoccs_tau_set_psi_type.c", line := 160, func := chars!"rssringoccs_Tau_Set_Psi_Type", kind := .recon, heap := false,
    pre := chars!"\n\rError Encountered: rss_ringoccs\n\r\trssringoccs_Tau_Set_Psi_Type\n\n\rfresnel1 is not allowed since the constant and linear\n\rterms of the Fresnel kernel are zero. Please choose\n\r'fresneln' with n > 1.\n\n" },
  { file := "src/tau/rss_ringoccs_tau_set_psi_type.c", line := 191, func := chars!"rssringoccs_Tau_Set_Psi_Type", kind := .recon, heap := false,
    pre := psiText },
  { file := "src/tau/rss_ringoccs_tau_set_range_from_string.c", line := 39, func := chars!"rssringoccs_Tau_Set_Range_From_String", kind := .recon, heap := false,
    pre := chars!"\rError Encountered: rss_ringoccs\n\r\trssringoccs_Tau_Get_Range_From_String\n\n\rInput string is NULL.\n\n" },
  { file := "src/tau/rss_ringoccs_tau_set_range_from_string.c", line := 138, func := chars!"rssringoccs_Tau_Set_Range_From_String", kind := .recon, heap := false,
    pre := rangeText },
  { file := "src/tau/rss_ringoccs_tau_set_window_type.c", line := 22, func := chars!"rssringoccs_Tau_Set_Window_Type", kind := .recon, heap := false,
    pre := chars!"\rError Encountered: rss_ringoccs\n\r\trssringoccs_Tau_Set_WType\n\n\rInput string is NULL.\n\n" },
  { file := "src/tau/rss_ringoccs_tau_set_window_type.c", line := 35, func := chars!"rssringoccs_Tau_Set_Window_Type", kind := .recon, heap := false,
    pre := chars!"\rError Encountered: rss_ringoccs\n\r\rrssringoccs_Tau_Set_WType\n\n\rtmpl_String_Duplicate returned NULL.\n\n" },
  { file := "src/tau/rss_ringoccs_tau_set_window_type.c", line := 89, func := chars!"rssringoccs_Tau_Set_Window_Type", kind := .recon, heap := false,
    pre := windowText }]

/-- The messages of this type, in rss_ringoccs/crssringoccs/auxiliary/crssringoccs_py_dlp_to_c_dlp.c 65, 83, 100, 116, 129. -/
def putsObj : List Put := [
  { file := "rss_ringoccs/crssringoccs/auxiliary/crssringoccs_py_dlp_to_c_dlp.c", line := 65, func := chars!"crssringoccs_Extract_Data", kind := .obj, heap := true,
    pre := chars!"\n\rError Encountered: rss_ringoccs\n\r\tcrssringoccs_Py_DLP_to_C_DLP\n\n\rInput DLP Instance is NULL.\n" },
  { file := "rss_ringoccs/crssringoccs/auxiliary/crssringoccs_py_dlp_to_c_dlp.c", line := 83, func := chars!"crssringoccs_Extract_Data", kind := .obj, heap := true,
    pre := chars!"\n\rError Encountered: rss_ringoccs\n\r\tdiffrec.DiffractionCorrection\n\n\rInput DLP Instance is missing the following attribute:\n\r\trho_km_vals\n\n" },
  { file := "rss_ringoccs/crssringoccs/auxiliary/crssringoccs_py_dlp_to_c_dlp.c", line := 100, func := chars!"crssringoccs_Extract_Data", kind := .obj, heap := true,
    pre := chars!"\n\rError Encountered: rss_ringoccs\n\r\tdiffrec.DiffractionCorrection\n\n\rrho_km_vals must be a numpy array.\n" },
  { file := "rss_ringoccs/crssringoccs/auxiliary/crssringoccs_py_dlp_to_c_dlp.c", line := 116, func := chars!"crssringoccs_Extract_Data", kind := .obj, heap := true,
    pre := chars!"\n\rError Encountered: rss_ringoccs\n\r\tdiffrec.DiffractionCorrection\n\n\rCould not convert rho_km_vals to double array. Input is most\n\rlikely complex numbers or contains a string.\n\n" },
  { file := "rss_ringoccs/crssringoccs/auxiliary/crssringoccs_py_dlp_to_c_dlp.c", line := 129, func := chars!"crssringoccs_Extract_Data", kind := .obj, heap := true,
    pre := chars!"\n\rError Encountered: rss_ringoccs\n\r\tdiffrec.DiffractionCorrection\n\n\rrho_km_vals must be a one-dimensional numpy array.\n" }]

/-- The messages of this type, in rss_ringoccs/crssringoccs/extract_csv_data/crssringoccs_extract_csv_data_steal.c 50, src/csv_tools/rss_ringoccs_csv_data_check_chord_occ.c 21, 53, 91, 105, src/csv_tools/rss_ringoccs_csv_data_extract_cal.c 33, 66, 101, src/csv_tools/rss_ringoccs_csv_data_extract_dlp.c 33, 66, 101, src/csv_tools/rss_ringoccs_csv_data_extract_geo.c 33, 66, 101, src/csv_tools/rss_ringoccs_csv_data_extract_tau.c 33, 66, 101, src/csv_tools/rss_ringoccs_csv_data_interpolate_cal.c 22, 54, src/csv_tools/rss_ringoccs_csv_data_interpolate_geo.c 21, 53, 68, src/csv_tools/rss_ringoccs_csv_data_interpolate_tau.c 22, 54, src/csv_tools/rss_ringoccs_csv_data_malloc.c 17, 38, src/csv_tools/rss_ringoccs_csv_data_reverse_geo_variables.c 22, 54, src/csv_tools/rss_ringoccs_csv_data_steal_dlp_data.c 33, 65, 104. -/
def putsCsv : List Put := [
  { file := "rss_ringoccs/crssringoccs/extract_csv_data/crssringoccs_extract_csv_data_steal.c", line := 50, func := chars!"crssringoccs_ExtractCSVData_Steal", kind := .csv, heap := true,
    pre := chars!"\n\rError Encountered: rss_ringoccs\n\r\tcrssringoccs_ExtractCSVData_Steal\n\n\rInput py_csv is NULL. Aborting.n" },
  { file := "src/csv_tools/rss_ringoccs_csv_data_check_chord_occ.c", line := 21, func := chars!"rssringoccs_CSVData_Check_Chord_Occ", kind := .csv, heap := true,
    pre := chars!"\nError Encountered: rss_ringoccs\n\trssringoccs_CSVData_Check_Chord_Occ\n\ncsv->geo is NULL. Aborting\n" },
  { file := "src/csv_tools/rss_ringoccs_csv_data_check_chord_occ.c", line := 53, func := chars!"rssringoccs_CSVData_Check_Chord_Occ", kind := .csv, heap := true,
    pre := chars!"\nError Encountered: rss_ringoccs\n\trssringoccs_CSVData_Check_Chord_Occ\n\ncsv->geo has 'error_occurred' set to True.\n" },
  { file := "src/csv_tools/rss_ringoccs_csv_data_check_chord_occ.c", line := 91, func := chars!"rssringoccs_CSVData_Check_Chord_Occ", kind := .csv, heap := true,
    pre := chars!"Error Encountered: rss_ringoccs\n\trssringoccs_CSVData_Check_Chord_Occ\n\n\rdrho/dt has positive and negative values. Check your DLP file.\n\rIt is likely a chord occultation and needs to be split into\n\ringress and egress portions.\n" },
  { file := "src/csv_tools/rss_ringoccs_csv_data_check_chord_occ.c", line := 105, func := chars!"rssringoccs_CSVData_Check_Chord_Occ", kind := .csv, heap := true,
    pre := chars!"Error Encountered: rss_ringoccs\n\trssringoccs_CSVData_Check_Chord_Occ\n\n\rdrho/dt has zero-valued elements. Check your DLP file.\n\rIt is likely a chord occultation and needs to be split into\n\ringress and egress portions.\n" },
  { file := "src/csv_tools/rss_ringoccs_csv_data_extract_cal.c", line := 33, func := chars!"rssringoccs_CSVData_Extract_Cal", kind := .csv, heap := true,
    pre := chars!"\nError Encountered: rss_ringoccs\n\trssringoccs_CSVData_Extract_Cal\n\nrssringoccs_CalCSV_Extract returned NULL. Aborting.\n" },
  { file := "src/csv_tools/rss_ringoccs_csv_data_extract_cal.c", line := 66, func := chars!"rssringoccs_CSVData_Extract_Cal", kind := .csv, heap := true,
    pre := chars!"\nError Encountered: rss_ringoccs\n\trssringoccs_CSVData_Extract_Cal\n\nrssringoccs_CalCSV_Extract returned with error.\n" },
  { file := "src/csv_tools/rss_ringoccs_csv_data_extract_cal.c", line := 101, func := chars!"rssringoccs_CSVData_Extract_Cal", kind := .csv, heap := true,
    pre := chars!"\nError Encountered: rss_ringoccs\n\trssringoccs_CSVData_Extract_Cal\n\nrssringoccs_CalCSV_Extract returned an empty struct.\n" },
  { file := "src/csv_tools/rss_ringoccs_csv_data_extract_dlp.c", line := 33, func := chars!"rssringoccs_CSVData_Extract_DLP", kind := .csv, heap := true,
    pre := chars!"\nError Encountered: rss_ringoccs\n\trssringoccs_CSVData_Extract_DLP\n\nrssringoccs_DLPCSV_Extract returned NULL. Aborting.\n" },
  { file := "src/csv_tools/rss_ringoccs_csv_data_extract_dlp.c", line := 66, func := chars!"rssringoccs_CSVData_Extract_DLP", kind := .csv, heap := true,
    pre := chars!"\nError Encountered: rss_ringoccs\n\trssringoccs_CSVData_Extract_DLP\n\nrssringoccs_DLPCSV_Extract returned with error.\n" },
  { file := "src/csv_tools/rss_ringoccs_csv_data_extract_dlp.c", line := 101, func := chars!"rssringoccs_CSVData_Extract_DLP", kind := .csv, heap := true,
    pre := chars!"\nError Encountered: rss_ringoccs\n\trssringoccs_CSVData_Extract_DLP\n\nrssringoccs_DLPCSV_Extract returned an empty struct.\n" },
  { file := "src/csv_tools/rss_ringoccs_csv_data_extract_geo.c", line := 33, func := chars!"rssringoccs_CSVData_Extract_Geo", kind := .csv, heap := true,
    pre := chars!"\nError Encountered: rss_ringoccs\n\trssringoccs_CSVData_Extract_Geo\n\nrssringoccs_GeoCSV_Extract returned NULL. Aborting.\n" },
  { file := "src/csv_tools/rss_ringoccs_csv_data_extract_geo.c", line := 66, func := chars!"rssringoccs_CSVData_Extract_Geo", kind := .csv, heap := true,
    pre := chars!"\nError Encountered: rss_ringoccs\n\trssringoccs_CSVData_Extract_Geo\n\nrssringoccs_GeoCSV_Extract returned with error.\n" },
  { file := "src/csv_tools/rss_ringoccs_csv_data_extract_geo.c", line := 101, func := chars!"rssringoccs_CSVData_Extract_Geo", kind := .csv, heap := true,
    pre := chars!"\nError Encountered: rss_ringoccs\n\trssringoccs_CSVData_Extract_Geo\n\nrssringoccs_GeoCSV_Extract returned an empty struct.\n" },
  { file := "src/csv_tools/rss_ringoccs_csv_data_extract_tau.c", line := 33, func := chars!"rssringoccs_CSVData_Extract_Tau", kind := .csv, heap := true,
    pre := chars!"\nError Encountered: rss_ringoccs\n\trssringoccs_CSVData_Extract_Tau\n\nrssringoccs_TauCSV_Extract returned NULL. Aborting.\n" },
  { file := "src/csv_tools/rss_ringoccs_csv_data_extract_tau.c", line := 66, func := chars!"rssringoccs_CSVData_Extract_Tau", kind := .csv, heap := true,
    pre := chars!"\nError Encountered: rss_ringoccs\n\trssringoccs_CSVData_Extract_Tau\n\nrssringoccs_TauCSV_Extract returned with error.\n" },
  { file := "src/csv_tools/rss_ringoccs_csv_data_extract_tau.c", line := 101, func := chars!"rssringoccs_CSVData_Extract_Tau", kind := .csv, heap := true,
    pre := chars!"\nError Encountered: rss_ringoccs\n\trssringoccs_CSVData_Extract_Tau\n\nrssringoccs_TauCSV_Extract returned an empty struct.\n" },
  { file := "src/csv_tools/rss_ringoccs_csv_data_interpolate_cal.c", line := 22, func := chars!"rssringoccs_CSVData_Interpolate_Cal", kind := .csv, heap := true,
    pre := chars!"\nError Encountered: rss_ringoccs\n\trssringoccs_CSVData_Interpolate_Cal\n\ncsv->cal is NULL. Aborting\n" },
  { file := "src/csv_tools/rss_ringoccs_csv_data_interpolate_cal.c", line := 54, func := chars!"rssringoccs_CSVData_Interpolate_Cal", kind := .csv, heap := true,
    pre := chars!"\nError Encountered: rss_ringoccs\n\trssringoccs_CSVData_Interpolate_Cal\n\ncsv->cal has 'error_occurred' set to True.\n" },
  { file := "src/csv_tools/rss_ringoccs_csv_data_interpolate_geo.c", line := 21, func := chars!"rssringoccs_CSVData_Interpolate_Geo", kind := .csv, heap := true,
    pre := chars!"\nError Encountered: rss_ringoccs\n\trssringoccs_CSVData_Interpolate_Geo\n\ncsv->geo is NULL. Aborting\n" },
  { file := "src/csv_tools/rss_ringoccs_csv_data_interpolate_geo.c", line := 53, func := chars!"rssringoccs_CSVData_Interpolate_Geo", kind := .csv, heap := true,
    pre := chars!"\nError Encountered: rss_ringoccs\n\trssringoccs_CSVData_Interpolate_Geo\n\ncsv->geo has 'error_occurred' set to True.\n" },
  { file := "src/csv_tools/rss_ringoccs_csv_data_interpolate_geo.c", line := 68, func := chars!"rssringoccs_CSVData_Interpolate_Geo", kind := .csv, heap := true,
    pre := chars!"\nError Encountered: rss_ringoccs\n\trssringoccs_CSVData_Interpolate_Geo\n\ncsv->geo->n_elements less than sum of increment and decrement.\n" },
  { file := "src/csv_tools/rss_ringoccs_csv_data_interpolate_tau.c", line := 22, func := chars!"rssringoccs_CSVData_Interpolate_Tau", kind := .csv, heap := true,
    pre := chars!"\nError Encountered: rss_ringoccs\n\trssringoccs_CSVData_Interpolate_Tau\n\ncsv->tau is NULL. Aborting\n" },
  { file := "src/csv_tools/rss_ringoccs_csv_data_interpolate_tau.c", line := 54, func := chars!"rssringoccs_CSVData_Interpolate_Tau", kind := .csv, heap := true,
    pre := chars!"\nError Encountered: rss_ringoccs\n\trssringoccs_CSVData_Interpolate_Tau\n\ncsv->tau has 'error_occurred' set to True.\n" },
  { file := "src/csv_tools/rss_ringoccs_csv_data_malloc.c", line := 17, func := chars!"rssringoccs_CSVData_Malloc", kind := .csv, heap := true,
    pre := chars!"Error Encountered: rss_ringoccs\n\trssringoccs_CSVData_Malloc\n\nMalloc returned NULL for csv member. Aborting.\n" },
  { file := "src/csv_tools/rss_ringoccs_csv_data_malloc.c", line := 38, func := chars!"rssringoccs_CSVData_Malloc", kind := .csv, heap := true,
    pre := chars!"Error Encountered: rss_ringoccs\n\trssringoccs_CSVData_Malloc\n\nn_elements is zero, nothing to malloc. Aborting.\n" },
  { file := "src/csv_tools/rss_ringoccs_csv_data_reverse_geo_variables.c", line := 22, func := chars!"rssringoccs_CSVData_Reverse_Geo_Variables", kind := .csv, heap := true,
    pre := chars!"\nError Encountered: rss_ringoccs\n\trssringoccs_CSVData_Reverse_Geo_Variables\n\ncsv->geo is NULL. Aborting\n" },
  { file := "src/csv_tools/rss_ringoccs_csv_data_reverse_geo_variables.c", line := 54, func := chars!"rssringoccs_CSVData_Reverse_Geo_Variables", kind := .csv, heap := true,
    pre := chars!"\nError Encountered: rss_ringoccs\n\trssringoccs_CSVData_Reverse_Geo_Variables\n\ncsv->geo has 'error_occurred' set to True.\n" },
  { file := "src/csv_tools/rss_ringoccs_csv_data_steal_dlp_data.c", line := 33, func := chars!"rssringoccs_CSVData_Steal_DLP_Data", kind := .csv, heap := true,
    pre := chars!"\nError Encountered: rss_ringoccs\n\trssringoccs_CSVData_Steal_DLP_Data\n\ncsv->dlp is NULL. Aborting\n" },
  { file := "src/csv_tools/rss_ringoccs_csv_data_steal_dlp_data.c", line := 65, func := chars!"rssringoccs_CSVData_Steal_DLP_Data", kind := .csv, heap := true,
    pre := chars!"\nError Encountered: rss_ringoccs\n\trssringoccs_CSVData_Steal_DLP_Data\n\ncsv->dlp has 'error_occurred' set to True.\n" },
  { file := "src/csv_tools/rss_ringoccs_csv_data_steal_dlp_data.c", line := 104, func := chars!"rssringoccs_CSVData_Steal_DLP_Data", kind := .csv, heap := true,
    pre := chars!"\nError Encountered: rss_ringoccs\n\trssringoccs_CSVData_Steal_DLP_Data\n\nmalloc returned NULL for p_norm_vals.\n" }]

/-- The messages of this type, in rss_ringoccs/crssringoccs/get_merged_csv_data/crssringoccs_get_merged_csv_data_steal.c 42, src/csv_tools/rss_ringoccs_merged_csv_data_check_column_count.c 55, 71, src/csv_tools/rss_ringoccs_merged_csv_data_extract.c 69, src/csv_tools/rss_ringoccs_merged_csv_data_malloc.c 49, 77, 94, src/csv_tools/rss_ringoccs_merged_csv_data_read_data.c 80, 94, 110. -/
def putsMerged : List Put := [
  { file := "rss_ringoccs/crssringoccs/get_merged_csv_data/crssringoccs_get_merged_csv_data_steal.c", line := 42, func := chars!"crssringoccs_GetMergedCSVData_Steal", kind := .merged, heap := true,
    pre := chars!"\n\rError Encountered: rss_ringoccs\n\r\tcrssringoccs_MergedCSVData_Steal\n\n\rInput py_csv is NULL. Aborting.n" },
  { file := "src/csv_tools/rss_ringoccs_merged_csv_data_check_column_count.c", line := 55, func := chars!"rssringoccs_MergedCSVData_Check_Column_Count", kind := .merged, heap := true,
    pre := chars!"Error Encountered: rss_ringoccs\n\trssringoccs_MergedCSVData_Check_Column_Count\n\nInput file is NULL. Aborting.\n" },
  { file := "src/csv_tools/rss_ringoccs_merged_csv_data_check_column_count.c", line := 71, func := chars!"rssringoccs_MergedCSVData_Check_Column_Count", kind := .merged, heap := true,
    pre := chars!"Error Encountered: rss_ringoccs\n\trssringoccs_MergedCSVData_Check_Column_Count\n\nDLPM CSV file does not have 19 columns. Aborting.\n" },
  { file := "src/csv_tools/rss_ringoccs_merged_csv_data_extract.c", line := 69, func := chars!"rssringoccs_MergedCSVData_Extract", kind := .merged, heap := true,
    pre := chars!"Error Encountered: rss_ringoccs\n\trssringoccs_MergedCSVData_Extract\n\nfopen returned NULL. Failed to open file for reading.\nIt is likely the filename is incorrect or does not exist.\n" },
  { file := "src/csv_tools/rss_ringoccs_merged_csv_data_malloc.c", line := 49, func := chars!"rssringoccs_MergedCSVData_Malloc", kind := .merged, heap := true,
    pre := chars!"Error Encountered: rss_ringoccs\n\trssringoccs_MergedCSVData_Malloc\n\nMalloc returned NULL. Failed to allocate memory for " },
  { file := "src/csv_tools/rss_ringoccs_merged_csv_data_malloc.c", line := 77, func := chars!"rssringoccs_MergedCSVData_Malloc", kind := .merged, heap := true,
    pre := chars!"Error Encountered: rss_ringoccs\n\trssringoccs_MergedCSVData_Malloc\n\nInput file is NULL. Aborting.\n" },
  { file := "src/csv_tools/rss_ringoccs_merged_csv_data_malloc.c", line := 94, func := chars!"rssringoccs_MergedCSVData_Malloc", kind := .merged, heap := true,
    pre := chars!"Error Encountered: rss_ringoccs\n\trssringoccs_MergedCSVData_Malloc\n\nn_elements is zero, nothing to malloc. Aborting.\n" },
  { file := "src/csv_tools/rss_ringoccs_merged_csv_data_read_data.c", line := 80, func := chars!"rssringoccs_MergedCSVData_Read_Data", kind := .merged, heap := true,
    pre := chars!"Error Encountered: rss_ringoccs\n\trssringoccs_MergedCSVData_Read_Data\n\nInput file is NULL. Aborting.\n" },
  { file := "src/csv_tools/rss_ringoccs_merged_csv_data_read_data.c", line := 94, func := chars!"rssringoccs_MergedCSVData_Read_Data", kind := .merged, heap := true,
    pre := chars!"Error Encountered: rss_ringoccs\n\trssringoccs_MergedCSVData_Read_Data\n\nn_elements is zero, nothing to read. Aborting.\n" },
  { file := "src/csv_tools/rss_ringoccs_merged_csv_data_read_data.c", line := 110, func := chars!"rssringoccs_MergedCSVData_Read_Data", kind := .merged, heap := true,
    pre := chars!"Error Encountered: rss_ringoccs\n\trssringoccs_MergedCSVData_Read_Data\n\nfgets returned NULL, no data to read. Aborting.\n" }]

/-- The messages of this type, in rss_ringoccs/crssringoccs/get_uranus_data/crssringoccs_get_uranus_data_steal.c 42, src/csv_tools/rss_ringoccs_uranus_csv_data_check_chord_occ.c 21, 53, 91, 105, src/csv_tools/rss_ringoccs_uranus_csv_data_extract_dlp.c 34, 67, 102, src/csv_tools/rss_ringoccs_uranus_csv_data_extract_geo.c 34, 67, 102, src/csv_tools/rss_ringoccs_uranus_csv_data_extract_tau.c 34, 67, 102, src/csv_tools/rss_ringoccs_uranus_csv_data_interpolate_geo.c 21, 53, 68, src/csv_tools/rss_ringoccs_uranus_csv_data_interpolate_tau.c 21, 53, src/csv_tools/rss_ringoccs_uranus_csv_data_malloc.c 17, 38, src/csv_tools/rss_ringoccs_uranus_csv_data_reverse_geo_variables.c 23, 55, src/csv_tools/rss_ringoccs_uranus_csv_data_steal_dlp_data.c 30, 62. -/
def putsUcsv : List Put := [
  { file := "rss_ringoccs/crssringoccs/get_uranus_data/crssringoccs_get_uranus_data_steal.c", line := 42, func := chars!"crssringoccs_GetUranusData_Steal", kind := .ucsv, heap := true,
    pre := chars!"\n\rError Encountered: rss_ringoccs\n\r\tcrssringoccs_ExtractCSVData_Steal\n\n\rInput py_csv is NULL. Aborting.n" },
  { file := "src/csv_tools/rss_ringoccs_uranus_csv_data_check_chord_occ.c", line := 21, func := chars!"rssringoccs_UranusCSVData_Check_Chord_Occ", kind := .ucsv, heap := true,
    pre := chars!"\nError Encountered: rss_ringoccs\n\trssringoccs_UranusCSVData_Check_Chord_Occ\n\ncsv->geo is NULL. Aborting\n" },
  { file := "src/csv_tools/rss_ringoccs_uranus_csv_data_check_chord_occ.c", line := 53, func := chars!"rssringoccs_UranusCSVData_Check_Chord_Occ", kind := .ucsv, heap := true,
    pre := chars!"\nError Encountered: rss_ringoccs\n\trssringoccs_UranusCSVData_Check_Chord_Occ\n\ncsv->geo has 'error_occurred' set to True.\n" },
  { file := "src/csv_tools/rss_ringoccs_uranus_csv_data_check_chord_occ.c", line := 91, func := chars!"rssringoccs_UranusCSVData_Check_Chord_Occ", kind := .ucsv, heap := true,
    pre := chars!"Error Encountered: rss_ringoccs\n\trssringoccs_UranusCSVData_Check_Chord_Occ\n\n\rdrho/dt has positive and negative values. Check your DLP file.\n\rIt is likely a chord occultation and needs to be split into\n\ringress and egress portions.\n" },
  { file := "src/csv_tools/rss_ringoccs_uranus_csv_data_check_chord_occ.c", line := 105, func := chars!"rssringoccs_UranusCSVData_Check_Chord_Occ", kind := .ucsv, heap := true,
    pre := chars!"Error Encountered: rss_ringoccs\n\trssringoccs_UranusCSVData_Check_Chord_Occ\n\n\rdrho/dt has zero-valued elements. Check your DLP file.\n\rIt is likely a chord occultation and needs to be split into\n\ringress and egress portions.\n" },
  { file := "src/csv_tools/rss_ringoccs_uranus_csv_data_extract_dlp.c", line := 34, func := chars!"rssringoccs_UranusCSVData_Extract_DLP", kind := .ucsv, heap := true,
    pre := chars!"\nError Encountered: rss_ringoccs\n\trssringoccs_UranusCSVData_Extract_DLP\n\nrssringoccs_DLPCSV_Extract returned NULL. Aborting.\n" },
  { file := "src/csv_tools/rss_ringoccs_uranus_csv_data_extract_dlp.c", line := 67, func := chars!"rssringoccs_UranusCSVData_Extract_DLP", kind := .ucsv, heap := true,
    pre := chars!"\nError Encountered: rss_ringoccs\n\trssringoccs_UranusCSVData_Extract_DLP\n\nrssringoccs_DLPCSV_Extract returned with error.\n" },
  { file := "src/csv_tools/rss_ringoccs_uranus_csv_data_extract_dlp.c", line := 102, func := chars!"rssringoccs_UranusCSVData_Extract_DLP", kind := .ucsv, heap := true,
    pre := chars!"\nError Encountered: rss_ringoccs\n\trssringoccs_CSVData_Extract_DLP\n\nrssringoccs_DLPCSV_Extract returned an empty struct.\n" },
  { file := "src/csv_tools/rss_ringoccs_uranus_csv_data_extract_geo.c", line := 34, func := chars!"rssringoccs_UranusCSVData_Extract_Geo", kind := .ucsv, heap := true,
    pre := chars!"\nError Encountered: rss_ringoccs\n\trssringoccs_UranusCSVData_Extract_Geo\n\nrssringoccs_GeoCSV_Extract returned NULL. Aborting.\n" },
  { file := "src/csv_tools/rss_ringoccs_uranus_csv_data_extract_geo.c", line := 67, func := chars!"rssringoccs_UranusCSVData_Extract_Geo", kind := .ucsv, heap := true,
    pre := chars!"\nError Encountered: rss_ringoccs\n\trssringoccs_UranusCSVData_Extract_Geo\n\nrssringoccs_GeoCSV_Extract returned with error.\n" },
  { file := "src/csv_tools/rss_ringoccs_uranus_csv_data_extract_geo.c", line := 102, func := chars!"rssringoccs_UranusCSVData_Extract_Geo", kind := .ucsv, heap := true,
    pre := chars!"\nError Encountered: rss_ringoccs\n\trssringoccs_UranusCSVData_Extract_Geo\n\nrssringoccs_GeoCSV_Extract returned an empty struct.\n" },
  { file := "src/csv_tools/rss_ringoccs_uranus_csv_data_extract_tau.c", line := 34, func := chars!"rssringoccs_UranusCSVData_Extract_Tau", kind := .ucsv, heap := true,
    pre := chars!"\nError Encountered: rss_ringoccs\n\trssringoccs_UranusCSVData_Extract_Tau\n\nrssringoccs_TauCSV_Extract returned NULL. Aborting.\n" },
  { file := "src/csv_tools/rss_ringoccs_uranus_csv_data_extract_tau.c", line := 67, func := chars!"rssringoccs_UranusCSVData_Extract_Tau", kind := .ucsv, heap := true,
    pre := chars!"\nError Encountered: rss_ringoccs\n\trssringoccs_UranusCSVData_Extract_Tau\n\nrssringoccs_TauCSV_Extract returned with error.\n" },
  { file := "src/csv_tools/rss_ringoccs_uranus_csv_data_extract_tau.c", line := 102, func := chars!"rssringoccs_UranusCSVData_Extract_Tau", kind := .ucsv, heap := true,
    pre := chars!"\nError Encountered: rss_ringoccs\n\trssringoccs_UranusCSVData_Extract_Tau\n\nrssringoccs_TauCSV_Extract returned an empty struct.\n" },
  { file := "src/csv_tools/rss_ringoccs_uranus_csv_data_interpolate_geo.c", line := 21, func := chars!"rssringoccs_UranusCSVData_Interpolate_Geo", kind := .ucsv, heap := true,
    pre := chars!"\nError Encountered: rss_ringoccs\n\trssringoccs_UranusCSVData_Interpolate_Geo\n\ncsv->geo is NULL. Aborting\n" },
  { file := "src/csv_tools/rss_ringoccs_uranus_csv_data_interpolate_geo.c", line := 53, func := chars!"rssringoccs_UranusCSVData_Interpolate_Geo", kind := .ucsv, heap := true,
    pre := chars!"\nError Encountered: rss_ringoccs\n\trssringoccs_UranusCSVData_Interpolate_Geo\n\ncsv->geo has 'error_occurred' set to True.\n" },
  { file := "src/csv_tools/rss_ringoccs_uranus_csv_data_interpolate_geo.c", line := 68, func := chars!"rssringoccs_UranusCSVData_Interpolate_Geo", kind := .ucsv, heap := true,
    pre := chars!"\nError Encountered: rss_ringoccs\n\trssringoccs_UranusCSVData_Interpolate_Geo\n\ncsv->geo->n_elements less than sum of increment and decrement.\n" },
  { file := "src/csv_tools/rss_ringoccs_uranus_csv_data_interpolate_tau.c", line := 21, func := chars!"rssringoccs_UranusCSVData_Interpolate_Tau", kind := .ucsv, heap := true,
    pre := chars!"\nError Encountered: rss_ringoccs\n\trssringoccs_UranusCSVData_Interpolate_Tau\n\ncsv->tau is NULL. Aborting\n" },
  { file := "src/csv_tools/rss_ringoccs_uranus_csv_data_interpolate_tau.c", line := 53, func := chars!"rssringoccs_UranusCSVData_Interpolate_Tau", kind := .ucsv, heap := true,
    pre := chars!"\nError Encountered: rss_ringoccs\n\trssringoccs_UranusCSVData_Interpolate_Tau\n\ncsv->tau has 'error_occurred' set to True.\n" },
  { file := "src/csv_tools/rss_ringoccs_uranus_csv_data_malloc.c", line := 17, func := chars!"rssringoccs_UranusCSVData_Malloc", kind := .ucsv, heap := true,
    pre := chars!"Error Encountered: rss_ringoccs\n\trssringoccs_UranusCSVData_Malloc\n\nMalloc returned NULL for csv member. Aborting.\n" },
  { file := "src/csv_tools/rss_ringoccs_uranus_csv_data_malloc.c", line := 38, func := chars!"rssringoccs_UranusCSVData_Malloc", kind := .ucsv, heap := true,
    pre := chars!"Error Encountered: rss_ringoccs\n\trssringoccs_UranusCSVData_Malloc\n\nn_elements is zero, nothing to malloc. Aborting.\n" },
  { file := "src/csv_tools/rss_ringoccs_uranus_csv_data_reverse_geo_variables.c", line := 23, func := chars!"rssringoccs_UranusCSVData_Reverse_Geo_Variables", kind := .ucsv, heap := true,
    pre := chars!"\nError Encountered: rss_ringoccs\n\trssringoccs_UranusCSVData_Reverse_Geo_Variables\n\ncsv->geo is NULL. Aborting\n" },
  { file := "src/csv_tools/rss_ringoccs_uranus_csv_data_reverse_geo_variables.c", line := 55, func := chars!"rssringoccs_UranusCSVData_Reverse_Geo_Variables", kind := .ucsv, heap := true,
    pre := chars!"\nError Encountered: rss_ringoccs\n\trssringoccs_UranusCSVData_Reverse_Geo_Variables\n\ncsv->geo has 'error_occurred' set to True.\n" },
  { file := "src/csv_tools/rss_ringoccs_uranus_csv_data_steal_dlp_data.c", line := 30, func := chars!"rssringoccs_UranusCSVData_Steal_DLP_Data", kind := .ucsv, heap := true,
    pre := chars!"\nError Encountered: rss_ringoccs\n\trssringoccs_UranusCSVData_Steal_DLP_Data\n\ncsv->dlp is NULL. Aborting\n" },
  { file := "src/csv_tools/rss_ringoccs_uranus_csv_data_steal_dlp_data.c", line := 62, func := chars!"rssringoccs_UranusCSVData_Steal_DLP_Data", kind := .ucsv, heap := true,
    pre := chars!"\nError Encountered: rss_ringoccs\n\trssringoccs_UranusCSVData_Steal_DLP_Data\n\ncsv->dlp has 'error_occurred' set to True.\n" }]

/-- The messages of this type, in src/csv_tools/rss_ringoccs_cal_csv_check_column_count.c 56, 71, src/csv_tools/rss_ringoccs_cal_csv_extract.c 68, src/csv_tools/rss_ringoccs_cal_csv_malloc.c 50, 77, 93, src/csv_tools/rss_ringoccs_cal_csv_read_data.c 78, 91. -/
def putsCal : List Put := [
  { file := "src/csv_tools/rss_ringoccs_cal_csv_check_column_count.c", line := 56, func := chars!"rssringoccs_CalCSV_Check_Column_Count", kind := .cal, heap := false,
    pre := chars!"Error Encountered: rss_ringoccs\n\trssringoccs_CalCSV_Check_Column_Count\n\nInput file is NULL.\n" },
  { file := "src/csv_tools/rss_ringoccs_cal_csv_check_column_count.c", line := 71, func := chars!"rssringoccs_CalCSV_Check_Column_Count", kind := .cal, heap := false,
    pre := chars!"Error Encountered: rss_ringoccs\n\trssringoccs_CalCSV_Check_Column_Count\n\nInput CSV does not have 4 columns.\n" },
  { file := "src/csv_tools/rss_ringoccs_cal_csv_extract.c", line := 68, func := chars!"rssringoccs_CalCSV_Extract", kind := .cal, heap := false,
    pre := chars!"Error Encountered: rss_ringoccs\n\trssringoccs_CalCSV_Extract\n\nfopen returned NULL. Failed to open file for reading.\nIt is likely the filename is incorrect or does not exist.\n" },
  { file := "src/csv_tools/rss_ringoccs_cal_csv_malloc.c", line := 50, func := chars!"rssringoccs_CalCSV_Malloc", kind := .cal, heap := false,
    pre := chars!"Error Encountered: rss_ringoccs\n\trssringoccs_CalCSV_Malloc\n\nmalloc failed to allocate memory for ",
    vars := [chars!"t_oet_spm_vals", chars!"f_sky_pred_vals", chars!"f_sky_resid_fit_vals", chars!"p_free_vals"], post := chars!".\n" },
  { file := "src/csv_tools/rss_ringoccs_cal_csv_malloc.c", line := 77, func := chars!"rssringoccs_CalCSV_Malloc", kind := .cal, heap := false,
    pre := chars!"Error Encountered: rss_ringoccs\n\trssringoccs_CalCSV_Malloc\n\nInput file is NULL.\n" },
  { file := "src/csv_tools/rss_ringoccs_cal_csv_malloc.c", line := 93, func := chars!"rssringoccs_CalCSV_Malloc", kind := .cal, heap := false,
    pre := chars!"Error Encountered: rss_ringoccs\n\trssringoccs_CalCSV_Malloc\n\nn_elements is zero, nothing to malloc.\n" },
  { file := "src/csv_tools/rss_ringoccs_cal_csv_read_data.c", line := 78, func := chars!"rssringoccs_CalCSV_Read_Data", kind := .cal, heap := false,
    pre := chars!"Error Encountered: rss_ringoccs\n\trssringoccs_CalCSV_Read_Data\n\nInput file is NULL.\n" },
  { file := "src/csv_tools/rss_ringoccs_cal_csv_read_data.c", line := 91, func := chars!"rssringoccs_CalCSV_Read_Data", kind := .cal, heap := false,
    pre := chars!"Error Encountered: rss_ringoccs\n\trssringoccs_CalCSV_Read_Data\n\nn_elements is zero, nothing to read.\n" }]

/-- The messages of this type, in src/csv_tools/rss_ringoccs_dlp_csv_check_column_count.c 52, 67, 77, src/csv_tools/rss_ringoccs_dlp_csv_extract.c 71, src/csv_tools/rss_ringoccs_dlp_csv_malloc.c 49, 77, 93, src/csv_tools/rss_ringoccs_dlp_csv_read_data.c 72, 85. -/
def putsDlp : List Put := [
  { file := "src/csv_tools/rss_ringoccs_dlp_csv_check_column_count.c", line := 52, func := chars!"rssringoccs_DLPCSV_Check_Column_Count", kind := .dlp, heap := false,
    pre := chars!"Error Encountered: rss_ringoccs\n\trssringoccs_DLPCSV_Check_Column_Count\n\nInput file is NULL.\n" },
  { file := "src/csv_tools/rss_ringoccs_dlp_csv_check_column_count.c", line := 67, func := chars!"rssringoccs_DLPCSV_Check_Column_Count", kind := .dlp, heap := false,
    pre := chars!"Error Encountered: rss_ringoccs\n\trssringoccs_DLPCSV_Check_Column_Count\n\nuse_deprecated is true but the CSV does not have 12 columns.\n" },
  { file := "src/csv_tools/rss_ringoccs_dlp_csv_check_column_count.c", line := 77, func := chars!"rssringoccs_DLPCSV_Check_Column_Count", kind := .dlp, heap := false,
    pre := chars!"Error Encountered: rss_ringoccs\n\trssringoccs_DLPCSV_Check_Column_Count\n\nuse_deprecated is false but the CSV does not have 13 columns.\n" },
  { file := "src/csv_tools/rss_ringoccs_dlp_csv_extract.c", line := 71, func := chars!"rssringoccs_DLPCSV_Extract", kind := .dlp, heap := false,
    pre := chars!"Error Encountered: rss_ringoccs\n\trssringoccs_DLPCSV_Extract\n\nfopen returned NULL. Failed to open file for reading.\nIt is likely the filename is incorrect or does not exist.\n" },
  { file := "src/csv_tools/rss_ringoccs_dlp_csv_malloc.c", line := 49, func := chars!"rssringoccs_DLPCSV_Malloc", kind := .dlp, heap := false,
    pre := chars!"Error Encountered: rss_ringoccs\n\trssringoccs_DLPCSV_Malloc\n\nMalloc failed to allocate memory for ",
    vars := [chars!"t_oet_spm_vals", chars!"t_ret_spm_vals", chars!"t_set_spm_vals", chars!"rho_km_vals", chars!"rho_corr_pole_km_vals", chars!"rho_corr_timing_km_vals", chars!"phi_rl_deg_vals", chars!"phi_ora_deg_vals", chars!"B_deg_vals", chars!"raw_tau_vals", chars!"phase_deg_vals", chars!"raw_tau_threshold_vals", chars!"p_norm_vals"], post := chars!".\nAborting computation and returning.\n" },
  { file := "src/csv_tools/rss_ringoccs_dlp_csv_malloc.c", line := 77, func := chars!"rssringoccs_DLPCSV_Malloc", kind := .dlp, heap := false,
    pre := chars!"Error Encountered: rss_ringoccs\n\trssringoccs_DLPCSV_Malloc\n\nInput file is NULL.\n" },
  { file := "src/csv_tools/rss_ringoccs_dlp_csv_malloc.c", line := 93, func := chars!"rssringoccs_DLPCSV_Malloc", kind := .dlp, heap := false,
    pre := chars!"Error Encountered: rss_ringoccs\n\trssringoccs_DLPCSV_Malloc\n\nn_elements is zero, nothing to malloc.\n" },
  { file := "src/csv_tools/rss_ringoccs_dlp_csv_read_data.c", line := 72, func := chars!"rssringoccs_DLPCSV_Read_Data", kind := .dlp, heap := false,
    pre := chars!"Error Encountered: rss_ringoccs\n\trssringoccs_DLPCSV_Read_Data\n\nInput file is NULL.\n" },
  { file := "src/csv_tools/rss_ringoccs_dlp_csv_read_data.c", line := 85, func := chars!"rssringoccs_DLPCSV_Read_Data", kind := .dlp, heap := false,
    pre := chars!"Error Encountered: rss_ringoccs\n\trssringoccs_DLPCSV_Read_Data\n\nn_elements is zero, nothing to read.\n" }]

/-- The messages of this type, in src/csv_tools/rss_ringoccs_geo_csv_check_column_count.c 52, 67, 77, src/csv_tools/rss_ringoccs_geo_csv_extract.c 71, src/csv_tools/rss_ringoccs_geo_csv_malloc.c 49, 76, 92, src/csv_tools/rss_ringoccs_geo_csv_read_data.c 72, 85, src/csv_tools/rss_ringoccs_geo_csv_write_history.c 20. -/
def putsGeo : List Put := [
  { file := "src/csv_tools/rss_ringoccs_geo_csv_check_column_count.c", line := 52, func := chars!"rssringoccs_GeoCSV_Check_Column_Count", kind := .geo, heap := false,
    pre := chars!"Error Encountered: rss_ringoccs\n\trssringoccs_GeoCSV_Check_Column_Count\n\nInput file is NULL.\n" },
  { file := "src/csv_tools/rss_ringoccs_geo_csv_check_column_count.c", line := 67, func := chars!"rssringoccs_GeoCSV_Check_Column_Count", kind := .geo, heap := false,
    pre := chars!"Error Encountered: rss_ringoccs\n\trssringoccs_GeoCSV_Check_Column_Count\n\nuse_deprecated is true but the CSV does not have 18 columns.\n" },
  { file := "src/csv_tools/rss_ringoccs_geo_csv_check_column_count.c", line := 77, func := chars!"rssringoccs_GeoCSV_Check_Column_Count", kind := .geo, heap := false,
    pre := chars!"Error Encountered: rss_ringoccs\n\trssringoccs_GeoCSV_Check_Column_Count\n\nuse_deprecated is false but the CSV does not have 19 columns.\n" },
  { file := "src/csv_tools/rss_ringoccs_geo_csv_extract.c", line := 71, func := chars!"rssringoccs_GeoCSV_Extract", kind := .geo, heap := false,
    pre := chars!"Error Encountered: rss_ringoccs\n\trssringoccs_GeoCSV_Extract\n\nfopen returned NULL. Failed to open file for reading.\nIt is likely the filename is incorrect or does not exist.\n" },
  { file := "src/csv_tools/rss_ringoccs_geo_csv_malloc.c", line := 49, func := chars!"rssringoccs_GeoCSV_Malloc", kind := .geo, heap := false,
    pre := chars!"Error Encountered: rss_ringoccs\n\trssringoccs_GeoCSV_Malloc\n\nMalloc failed to allocate memory for ",
    vars := [chars!"t_oet_spm_vals", chars!"t_ret_spm_vals", chars!"t_set_spm_vals", chars!"rho_km_vals", chars!"phi_rl_deg_vals", chars!"phi_ora_deg_vals", chars!"B_deg_vals", chars!"D_km_vals", chars!"rho_dot_kms_vals", chars!"phi_rl_dot_kms_vals", chars!"F_km_vals", chars!"R_imp_km_vals", chars!"rx_km_vals", chars!"ry_km_vals", chars!"rz_km_vals", chars!"vx_kms_vals", chars!"vy_kms_vals", chars!"vz_kms_vals", chars!"obs_spacecraft_lat_deg_vals"], post := chars!".\n" },
  { file := "src/csv_tools/rss_ringoccs_geo_csv_malloc.c", line := 76, func := chars!"rssringoccs_GeoCSV_Malloc", kind := .geo, heap := false,
    pre := chars!"Error Encountered: rss_ringoccs\n\trssringoccs_GeoCSV_Malloc\n\nInput file is NULL.\n" },
  { file := "src/csv_tools/rss_ringoccs_geo_csv_malloc.c", line := 92, func := chars!"rssringoccs_GeoCSV_Malloc", kind := .geo, heap := false,
    pre := chars!"Error Encountered: rss_ringoccs\n\trssringoccs_GeoCSV_Malloc\n\nn_elements is zero, nothing to malloc. Aborting.\n" },
  { file := "src/csv_tools/rss_ringoccs_geo_csv_read_data.c", line := 72, func := chars!"rssringoccs_GeoCSV_Read_Data", kind := .geo, heap := false,
    pre := chars!"Error Encountered: rss_ringoccs\n\trssringoccs_GeoCSV_Read_Data\n\nInput file is NULL.\n" },
  { file := "src/csv_tools/rss_ringoccs_geo_csv_read_data.c", line := 85, func := chars!"rssringoccs_GeoCSV_Read_Data", kind := .geo, heap := false,
    pre := chars!"Error Encountered: rss_ringoccs\n\trssringoccs_GeoCSV_Read_Data\n\nn_elements is zero, nothing to read.\n" },
  { file := "src/csv_tools/rss_ringoccs_geo_csv_write_history.c", line := 20, func := chars!"rssringoccs_GeoCSV_Write_History", kind := .geo, heap := false,
    pre := chars!"\nError Encountered: rss_ringoccs\n\trssringoccs_GeoCSV_Write_History\n\nmalloc failed to allocate memory for history.\n" }]

/-- The messages of this type, in src/csv_tools/rss_ringoccs_tau_csv_check_column_count.c 53, 68, 78, src/csv_tools/rss_ringoccs_tau_csv_extract.c 70, src/csv_tools/rss_ringoccs_tau_csv_malloc.c 48, 74, 90, src/csv_tools/rss_ringoccs_tau_csv_read_data.c 72, 85. -/
def putsTau : List Put := [
  { file := "src/csv_tools/rss_ringoccs_tau_csv_check_column_count.c", line := 53, func := chars!"rssringoccs_TauCSV_Check_Column_Count", kind := .tau, heap := false,
    pre := chars!"Error Encountered: rss_ringoccs\n\trssringoccs_TauCSV_Check_Column_Count\n\nInput file is NULL.\n" },
  { file := "src/csv_tools/rss_ringoccs_tau_csv_check_column_count.c", line := 68, func := chars!"rssringoccs_TauCSV_Check_Column_Count", kind := .tau, heap := false,
    pre := chars!"Error Encountered: rss_ringoccs\n\trssringoccs_TauCSV_Check_Column_Count\n\nuse_deprecated is true but input CSV does not have 12 columns.\n" },
  { file := "src/csv_tools/rss_ringoccs_tau_csv_check_column_count.c", line := 78, func := chars!"rssringoccs_TauCSV_Check_Column_Count", kind := .tau, heap := false,
    pre := chars!"Error Encountered: rss_ringoccs\n\trssringoccs_TauCSV_Check_Column_Count\n\nuse_deprecated is false but input CSV does not have 13 columns.\n" },
  { file := "src/csv_tools/rss_ringoccs_tau_csv_extract.c", line := 70, func := chars!"rssringoccs_TauCSV_Extract", kind := .tau, heap := false,
    pre := chars!"Error Encountered: rss_ringoccs\n\trssringoccs_Get_Tau\n\nfopen returned NULL. Failed to open file for reading.\nIt is likely the filename is incorrect or does not exist.\n" },
  { file := "src/csv_tools/rss_ringoccs_tau_csv_malloc.c", line := 48, func := chars!"rssringoccs_TauCSV_Malloc", kind := .tau, heap := false,
    pre := chars!"\nError Encountered: rss_ringoccs\n\trssringoccs_TauCSV_Malloc\n\nmalloc returned NULL. Failed to allocate memory for ",
    vars := [chars!"rho_km_vals", chars!"rho_corr_pole_km_vals", chars!"rho_corr_timing_km_vals", chars!"phi_rl_deg_vals", chars!"phi_ora_deg_vals", chars!"tau_vals", chars!"phase_deg_vals", chars!"tau_threshold_vals", chars!"t_oet_spm_vals", chars!"t_ret_spm_vals", chars!"t_set_spm_vals", chars!"B_deg_vals", chars!"power_vals"], post := chars!".\n" },
  { file := "src/csv_tools/rss_ringoccs_tau_csv_malloc.c", line := 74, func := chars!"rssringoccs_TauCSV_Malloc", kind := .tau, heap := false,
    pre := chars!"Error Encountered: rss_ringoccs\n\trssringoccs_TauCSV_Malloc\n\nInput file is NULL.\n" },
  { file := "src/csv_tools/rss_ringoccs_tau_csv_malloc.c", line := 90, func := chars!"rssringoccs_TauCSV_Malloc", kind := .tau, heap := false,
    pre := chars!"Error Encountered: rss_ringoccs\n\trssringoccs_TauCSV_Malloc\n\nn_elements is zero, nothing to malloc.\n" },
  { file := "src/csv_tools/rss_ringoccs_tau_csv_read_data.c", line := 72, func := chars!"rssringoccs_TauCSV_Read_Data", kind := .tau, heap := false,
    pre := chars!"Error Encountered: rss_ringoccs\n\trssringoccs_TauCSV_Read_Data\n\nInput file is NULL.\n" },
  { file := "src/csv_tools/rss_ringoccs_tau_csv_read_data.c", line := 85, func := chars!"rssringoccs_TauCSV_Read_Data", kind := .tau, heap := false,
    pre := chars!"Error Encountered: rss_ringoccs\n\trssringoccs_TauCSV_Read_Data\n\nn_elements is zero, nothing to read.\n" }]

/-- The messages of this type, in src/csv_tools/rss_ringoccs_uranus_dlp_csv_check_column_count.c 55, 73, src/csv_tools/rss_ringoccs_uranus_dlp_csv_extract.c 71, src/csv_tools/rss_ringoccs_uranus_dlp_csv_malloc.c 49, 77, 94, src/csv_tools/rss_ringoccs_uranus_dlp_csv_read_data.c 81, 95. -/
def putsUdlp : List Put := [
  { file := "src/csv_tools/rss_ringoccs_uranus_dlp_csv_check_column_count.c", line := 55, func := chars!"rssringoccs_UranusDLPCSV_Check_Column_Count", kind := .udlp, heap := true,
    pre := chars!"Error Encountered: rss_ringoccs\n\trssringoccs_UranusDLPCSV_Check_Column_Count\n\nInput file is NULL. Aborting.\n" },
  { file := "src/csv_tools/rss_ringoccs_uranus_dlp_csv_check_column_count.c", line := 73, func := chars!"rssringoccs_UranusDLPCSV_Check_Column_Count", kind := .udlp, heap := true,
    pre := chars!"Error Encountered: rss_ringoccs\n\trssringoccs_UranusDLPCSV_Check_Column_Count\n\nUranus DLP CSVs must have 17 columns. Aborting.\n" },
  { file := "src/csv_tools/rss_ringoccs_uranus_dlp_csv_extract.c", line := 71, func := chars!"rssringoccs_UranusDLPCSV_Extract", kind := .udlp, heap := true,
    pre := chars!"Error Encountered: rss_ringoccs\n\trssringoccs_UranusDLPCSV_Extract\n\nfopen returned NULL. Failed to open file for reading.\nIt is likely the filename is incorrect or does not exist.\n" },
  { file := "src/csv_tools/rss_ringoccs_uranus_dlp_csv_malloc.c", line := 49, func := chars!"rssringoccs_UranusDLPCSV_Malloc", kind := .udlp, heap := true,
    pre := chars!"Error Encountered: rss_ringoccs\n\trssringoccs_UranusDLPCSV_Malloc\n\nMalloc returned NULL. Failed to allocate memory for ",
    vars := [chars!"rho_km_vals", chars!"rho_corr_pole_km_vals", chars!"rho_corr_timing_km_vals", chars!"phi_rl_deg_vals", chars!"phi_deg_vals", chars!"p_norm_vals", chars!"raw_tau_vals", chars!"phase_deg_vals", chars!"raw_tau_threshold_vals", chars!"t_oet_spm_vals", chars!"t_ret_spm_vals", chars!"t_set_spm_vals", chars!"B_deg_vals", chars!"rho_dot_kms_vals", chars!"F_km_vals", chars!"D_km_vals", chars!"f_sky_hz_vals"], post := chars!".\nAborting computation and returning.\n" },
  { file := "src/csv_tools/rss_ringoccs_uranus_dlp_csv_malloc.c", line := 77, func := chars!"rssringoccs_UranusDLPCSV_Malloc", kind := .udlp, heap := true,
    pre := chars!"Error Encountered: rss_ringoccs\n\trssringoccs_UranusDLPCSV_Malloc\n\nInput file is NULL. Aborting.\n" },
  { file := "src/csv_tools/rss_ringoccs_uranus_dlp_csv_malloc.c", line := 94, func := chars!"rssringoccs_UranusDLPCSV_Malloc", kind := .udlp, heap := true,
    pre := chars!"Error Encountered: rss_ringoccs\n\trssringoccs_UranusDLPCSV_Malloc\n\nn_elements is zero, nothing to malloc. Aborting.\n" },
  { file := "src/csv_tools/rss_ringoccs_uranus_dlp_csv_read_data.c", line := 81, func := chars!"rssringoccs_UranusDLPCSV_Read_Data", kind := .udlp, heap := true,
    pre := chars!"Error Encountered: rss_ringoccs\n\trssringoccs_UranusDLPCSV_Read_Data\n\nInput file is NULL. Aborting.\n" },
  { file := "src/csv_tools/rss_ringoccs_uranus_dlp_csv_read_data.c", line := 95, func := chars!"rssringoccs_UranusDLPCSV_Read_Data", kind := .udlp, heap := true,
    pre := chars!"Error Encountered: rss_ringoccs\n\trssringoccs_UranusDLPCSV_Read_Data\n\nn_elements is zero, nothing to read. Aborting.\n" }]

/-- All of them. -/
def puts : List Put := putsRecon0 ++ putsRecon1 ++ putsRecon2 ++ putsObj ++ putsCsv ++ putsMerged ++ putsUcsv ++ putsCal ++ putsDlp ++ putsGeo ++ putsTau ++ putsUdlp

/-- The buffers, in src/csv_tools/rss_ringoccs_csv_data_check_chord_occ.c 37, src/csv_tools/rss_ringoccs_csv_data_extract_cal.c 50, src/csv_tools/rss_ringoccs_csv_data_extract_cal.c 86, src/csv_tools/rss_ringoccs_csv_data_extract_dlp.c 50, src/csv_tools/rss_ringoccs_csv_data_extract_dlp.c 86, src/csv_tools/rss_ringoccs_csv_data_extract_geo.c 50, src/csv_tools/rss_ringoccs_csv_data_extract_geo.c 86, src/csv_tools/rss_ringoccs_csv_data_extract_tau.c 50, src/csv_tools/rss_ringoccs_csv_data_extract_tau.c 86, src/csv_tools/rss_ringoccs_csv_data_interpolate_cal.c 38, src/csv_tools/rss_ringoccs_csv_data_interpolate_geo.c 37, src/csv_tools/rss_ringoccs_csv_data_interpolate_tau.c 38, src/csv_tools/rss_ringoccs_csv_data_reverse_geo_variables.c 38, src/csv_tools/rss_ringoccs_csv_data_steal_dlp_data.c 49, src/csv_tools/rss_ringoccs_uranus_csv_data_check_chord_occ.c 37, src/csv_tools/rss_ringoccs_uranus_csv_data_extract_dlp.c 51, src/csv_tools/rss_ringoccs_uranus_csv_data_extract_dlp.c 87, src/csv_tools/rss_ringoccs_uranus_csv_data_extract_geo.c 51, src/csv_tools/rss_ringoccs_uranus_csv_data_extract_geo.c 87, src/csv_tools/rss_ringoccs_uranus_csv_data_extract_tau.c 51, src/csv_tools/rss_ringoccs_uranus_csv_data_extract_tau.c 87, src/csv_tools/rss_ringoccs_uranus_csv_data_interpolate_geo.c 37, src/csv_tools/rss_ringoccs_uranus_csv_data_interpolate_tau.c 37, src/csv_tools/rss_ringoccs_uranus_csv_data_reverse_geo_variables.c 39, src/csv_tools/rss_ringoccs_uranus_csv_data_steal_dlp_data.c 46. -/
def sites : List Site := [
  { file := "src/csv_tools/rss_ringoccs_csv_data_check_chord_occ.c", line := 37, func := chars!"rssringoccs_CSVData_Check_Chord_Occ", kind := .csv, cap := 1024, frm := .geo,
    pre := chars!"\nError Encountered: rss_ringoccs\n\trssringoccs_CSVData_Check_Chord_Occ\n\ncsv->geo has 'error_occurred' set to True.\ncsv->geo set the following message:\n\n" },
  { file := "src/csv_tools/rss_ringoccs_csv_data_extract_cal.c", line := 50, func := chars!"rssringoccs_CSVData_Extract_Cal", kind := .csv, cap := 1024, frm := .cal,
    pre := chars!"\nError Encountered: rss_ringoccs\n\trssringoccs_CSVData_Extract_Cal\n\nrssringoccs_CalCSV_Extract returned with error.\nrssringoccs_CalCSV_Extract set the following message:\n\n" },
  { file := "src/csv_tools/rss_ringoccs_csv_data_extract_cal.c", line := 86, func := chars!"rssringoccs_CSVData_Extract_Cal", kind := .csv, cap := 1024, frm := .cal,
    pre := chars!"\nError Encountered: rss_ringoccs\n\trssringoccs_CSVData_Extract_Cal\n\nrssringoccs_CalCSV_Extract returned an empty struct.\nrssringoccs_CalCSV_Extract set the following message:\n\n" },
  { file := "src/csv_tools/rss_ringoccs_csv_data_extract_dlp.c", line := 50, func := chars!"rssringoccs_CSVData_Extract_DLP", kind := .csv, cap := 1024, frm := .dlp,
    pre := chars!"\nError Encountered: rss_ringoccs\n\trssringoccs_CSVData_Extract_DLP\n\nrssringoccs_DLPCSV_Extract returned with error.\nrssringoccs_DLPCSV_Extract set the following message:\n\n" },
  { file := "src/csv_tools/rss_ringoccs_csv_data_extract_dlp.c", line := 86, func := chars!"rssringoccs_CSVData_Extract_DLP", kind := .csv, cap := 1024, frm := .dlp,
    pre := chars!"\nError Encountered: rss_ringoccs\n\trssringoccs_CSVData_Extract_DLP\n\nrssringoccs_DLPCSV_Extract returned an empty struct.\nrssringoccs_DLPCSV_Extract set the following message:\n\n" },
  { file := "src/csv_tools/rss_ringoccs_csv_data_extract_geo.c", line := 50, func := chars!"rssringoccs_CSVData_Extract_Geo", kind := .csv, cap := 1024, frm := .geo,
    pre := chars!"\nError Encountered: rss_ringoccs\n\trssringoccs_CSVData_Extract_Geo\n\nrssringoccs_GeoCSV_Extract returned with error.\nrssringoccs_GeoCSV_Extract set the following message:\n\n" },
  { file := "src/csv_tools/rss_ringoccs_csv_data_extract_geo.c", line := 86, func := chars!"rssringoccs_CSVData_Extract_Geo", kind := .csv, cap := 1024, frm := .geo,
    pre := chars!"\nError Encountered: rss_ringoccs\n\trssringoccs_CSVData_Extract_Geo\n\nrssringoccs_GeoCSV_Extract returned an empty struct.\nrssringoccs_GeoCSV_Extract set the following message:\n\n" },
  { file := "src/csv_tools/rss_ringoccs_csv_data_extract_tau.c", line := 50, func := chars!"rssringoccs_CSVData_Extract_Tau", kind := .csv, cap := 1024, frm := .tau,
    pre := chars!"\nError Encountered: rss_ringoccs\n\trssringoccs_CSVData_Extract_Tau\n\nrssringoccs_TauCSV_Extract returned with error.\nrssringoccs_TauCSV_Extract set the following message:\n\n" },
  { file := "src/csv_tools/rss_ringoccs_csv_data_extract_tau.c", line := 86, func := chars!"rssringoccs_CSVData_Extract_Tau", kind := .csv, cap := 1024, frm := .tau,
    pre := chars!"\nError Encountered: rss_ringoccs\n\trssringoccs_CSVData_Extract_Tau\n\nrssringoccs_TauCSV_Extract returned an empty struct.\nrssringoccs_TauCSV_Extract set the following message:\n\n" },
  { file := "src/csv_tools/rss_ringoccs_csv_data_interpolate_cal.c", line := 38, func := chars!"rssringoccs_CSVData_Interpolate_Cal", kind := .csv, cap := 1024, frm := .cal,
    pre := chars!"\nError Encountered: rss_ringoccs\n\trssringoccs_CSVData_Interpolate_Cal\n\ncsv->cal has 'error_occurred' set to True.\ncsv->cal set the following message:\n\n" },
  { file := "src/csv_tools/rss_ringoccs_csv_data_interpolate_geo.c", line := 37, func := chars!"rssringoccs_CSVData_Interpolate_Geo", kind := .csv, cap := 1024, frm := .geo,
    pre := chars!"\nError Encountered: rss_ringoccs\n\trssringoccs_CSVData_Interpolate_Geo\n\ncsv->geo has 'error_occurred' set to True.\ncsv->geo set the following message:\n\n" },
  { file := "src/csv_tools/rss_ringoccs_csv_data_interpolate_tau.c", line := 38, func := chars!"rssringoccs_CSVData_Interpolate_Tau", kind := .csv, cap := 1024, frm := .tau,
    pre := chars!"\nError Encountered: rss_ringoccs\n\trssringoccs_CSVData_Interpolate_Tau\n\ncsv->tau has 'error_occurred' set to True.\ncsv->tau set the following message:\n\n" },
  { file := "src/csv_tools/rss_ringoccs_csv_data_reverse_geo_variables.c", line := 38, func := chars!"rssringoccs_CSVData_Reverse_Geo_Variables", kind := .csv, cap := 1024, frm := .geo,
    pre := chars!"\nError Encountered: rss_ringoccs\n\trssringoccs_CSVData_Reverse_Geo_Variables\n\ncsv->geo has 'error_occurred' set to True.\ncsv->geo set the following message:\n\n" },
  { file := "src/csv_tools/rss_ringoccs_csv_data_steal_dlp_data.c", line := 49, func := chars!"rssringoccs_CSVData_Steal_DLP_Data", kind := .csv, cap := 1024, frm := .dlp,
    pre := chars!"\nError Encountered: rss_ringoccs\n\trssringoccs_CSVData_Steal_DLP_Data\n\ncsv->dlp has 'error_occurred' set to True.\ncsv->dlp set the following message:\n\n" },
  { file := "src/csv_tools/rss_ringoccs_uranus_csv_data_check_chord_occ.c", line := 37, func := chars!"rssringoccs_UranusCSVData_Check_Chord_Occ", kind := .ucsv, cap := 1024, frm := .geo,
    pre := chars!"\nError Encountered: rss_ringoccs\n\trssringoccs_UranusCSVData_Check_Chord_Occ\n\ncsv->geo has 'error_occurred' set to True.\ncsv->geo set the following message:\n\n" },
  { file := "src/csv_tools/rss_ringoccs_uranus_csv_data_extract_dlp.c", line := 51, func := chars!"rssringoccs_UranusCSVData_Extract_DLP", kind := .ucsv, cap := 1024, frm := .udlp,
    pre := chars!"\nError Encountered: rss_ringoccs\n\trssringoccs_UranusCSVData_Extract_DLP\n\nrssringoccs_DLPCSV_Extract returned with error.\nrssringoccs_DLPCSV_Extract set the following message:\n\n" },
  { file := "src/csv_tools/rss_ringoccs_uranus_csv_data_extract_dlp.c", line := 87, func := chars!"rssringoccs_UranusCSVData_Extract_DLP", kind := .ucsv, cap := 1024, frm := .udlp,
    pre := chars!"\nError Encountered: rss_ringoccs\n\trssringoccs_CSVData_Extract_DLP\n\nrssringoccs_DLPCSV_Extract returned an empty struct.\nrssringoccs_DLPCSV_Extract set the following message:\n\n" },
  { file := "src/csv_tools/rss_ringoccs_uranus_csv_data_extract_geo.c", line := 51, func := chars!"rssringoccs_UranusCSVData_Extract_Geo", kind := .ucsv, cap := 1024, frm := .geo,
    pre := chars!"\nError Encountered: rss_ringoccs\n\trssringoccs_UranusCSVData_Extract_Geo\n\nrssringoccs_GeoCSV_Extract returned with error.\nrssringoccs_GeoCSV_Extract set the following message:\n\n" },
  { file := "src/csv_tools/rss_ringoccs_uranus_csv_data_extract_geo.c", line := 87, func := chars!"rssringoccs_UranusCSVData_Extract_Geo", kind := .ucsv, cap := 1024, frm := .geo,
    pre := chars!"\nError Encountered: rss_ringoccs\n\trssringoccs_UranusCSVData_Extract_Geo\n\nrssringoccs_GeoCSV_Extract returned an empty struct.\nrssringoccs_GeoCSV_Extract set the following message:\n\n" },
  { file := "src/csv_tools/rss_ringoccs_uranus_csv_data_extract_tau.c", line := 51, func := chars!"rssringoccs_UranusCSVData_Extract_Tau", kind := .ucsv, cap := 1024, frm := .tau,
    pre := chars!"\nError Encountered: rss_ringoccs\n\trssringoccs_UranusCSVData_Extract_Tau\n\nrssringoccs_TauCSV_Extract returned with error.\nrssringoccs_TauCSV_Extract set the following message:\n\n" },
  { file := "src/csv_tools/rss_ringoccs_uranus_csv_data_extract_tau.c", line := 87, func := chars!"rssringoccs_UranusCSVData_Extract_Tau", kind := .ucsv, cap := 1024, frm := .tau,
    pre := chars!"\nError Encountered: rss_ringoccs\n\trssringoccs_UranusCSVData_Extract_Tau\n\nrssringoccs_TauCSV_Extract returned an empty struct.\nrssringoccs_TauCSV_Extract set the following message:\n\n" },
  { file := "src/csv_tools/rss_ringoccs_uranus_csv_data_interpolate_geo.c", line := 37, func := chars!"rssringoccs_UranusCSVData_Interpolate_Geo", kind := .ucsv, cap := 1024, frm := .geo,
    pre := chars!"\nError Encountered: rss_ringoccs\n\trssringoccs_UranusCSVData_Interpolate_Geo\n\ncsv->geo has 'error_occurred' set to True.\ncsv->geo set the following message:\n\n" },
  { file := "src/csv_tools/rss_ringoccs_uranus_csv_data_interpolate_tau.c", line := 37, func := chars!"rssringoccs_UranusCSVData_Interpolate_Tau", kind := .ucsv, cap := 1024, frm := .tau,
    pre := chars!"\nError Encountered: rss_ringoccs\n\trssringoccs_UranusCSVData_Interpolate_Tau\n\ncsv->tau has 'error_occurred' set to True.\ncsv->tau set the following message:\n\n" },
  { file := "src/csv_tools/rss_ringoccs_uranus_csv_data_reverse_geo_variables.c", line := 39, func := chars!"rssringoccs_UranusCSVData_Reverse_Geo_Variables", kind := .ucsv, cap := 1024, frm := .geo,
    pre := chars!"\nError Encountered: rss_ringoccs\n\trssringoccs_UranusCSVData_Reverse_Geo_Variables\n\ncsv->geo has 'error_occurred' set to True.\ncsv->geo set the following message:\n\n" },
  { file := "src/csv_tools/rss_ringoccs_uranus_csv_data_steal_dlp_data.c", line := 46, func := chars!"rssringoccs_UranusCSVData_Steal_DLP_Data", kind := .ucsv, cap := 1024, frm := .udlp,
    pre := chars!"\nError Encountered: rss_ringoccs\n\trssringoccs_UranusCSVData_Steal_DLP_Data\n\ncsv->dlp has 'error_occurred' set to True.\ncsv->dlp set the following message:\n\n" }]

/-- The texts around the name of an attribute, in a buffer of 512 characters: rss_ringoccs/crssringoccs/auxiliary/crssringoccs_extract_data.c 71, 109, 125, 141
(the call in line 89 does not write to the buffer, see C59). -/
def attrTexts : List (List Char × List Char) := [(chars!"\n\rError Encountered: rss_ringoccs\n\r\tdiffrec.DiffractionCorrection\n\n\rInput DLP Instance is missing the following attribute:\n\r\t", chars!"\n\n"),
  (chars!"\n\rError Encountered: rss_ringoccs\n\r\tdiffrec.DiffractionCorrection\n\n\r", chars!" must be a numpy array.\n"),
  (chars!"\n\rError Encountered: rss_ringoccs\n\r\tdiffrec.DiffractionCorrection\n\n\r", chars!" must be a one-dimensional numpy array.\n"),
  (chars!"\n\rError Encountered: rss_ringoccs\n\r\tdiffrec.DiffractionCorrection\n\n\r", chars!" and rho_km_vals have a different number of elements.\n")]

/-- The attributes: rss_ringoccs/crssringoccs/auxiliary/crssringoccs_py_dlp_to_c_dlp.c 141-157. -/
def attrs : List (List Char) := [chars!"p_norm_vals", chars!"phase_deg_vals", chars!"phi_deg_vals", chars!"phi_rl_deg_vals", chars!"B_deg_vals", chars!"D_km_vals", chars!"f_sky_hz_vals", chars!"rho_dot_kms_vals", chars!"t_oet_spm_vals", chars!"t_ret_spm_vals", chars!"t_set_spm_vals", chars!"rx_km_vals", chars!"ry_km_vals", chars!"rz_km_vals", chars!"rho_corr_pole_km_vals", chars!"rho_corr_timing_km_vals", chars!"raw_tau_threshold_vals"]

end Verif.Msg
