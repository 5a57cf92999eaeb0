{
 "claims": [
  {
   "property": "C01",
   "status": "proved",
   "theorems": [
    "Verif.C01_errors_sticky",
    "Verif.C01_first_message"
   ],
   "note": "All 33 public functions that take a tau object, any sequence of calls."
  },
  {
   "property": "C02",
   "status": "partial",
   "theorems": [
    "Verif.C02_null_false",
    "Verif.C02_null_partial"
   ],
   "note": "False for Diffraction_Correction_SimpleFFT (NULL dereference, proved); proved for every other function."
  },
  {
   "property": "C03",
   "status": "proved",
   "theorems": [
    "Verif.C03_create_faithful",
    "Verif.C03_create_total"
   ],
   "note": "Any DLP, any malloc outcome. That the DLP is untouched is built into the model: the functions only read it."
  },
  {
   "property": "C04",
   "status": "partial",
   "theorems": [
    "Verif.C04_geometry_partial",
    "Verif.C04_create_partial",
    "Verif.C04_geometry_false",
    "Verif.C04_spacing_exact"
   ],
   "note": "False for a NaN resolution (accepted; proved). The iff is proved for every other resolution; of the arithmetic only 1.99*q != NaN is assumed."
  },
  {
   "property": "C05",
   "status": "proved",
   "theorems": [
    "Verif.C05_keywords",
    "Verif.C05_first_unique",
    "Verif.C05_nan_rejected"
   ],
   "note": ""
  },
  {
   "property": "C06",
   "status": "partial",
   "theorems": [
    "Verif.C06_defaults_stored",
    "Verif.C06_default_range_false",
    "Verif.C06_default_always_rejected",
    "Verif.C06_default_range_partial"
   ],
   "note": "False: the defaults go to requested_range while range stays [0,0], so every data set with positive radii is rejected (proved). Holds after Set_Range_From_String(\"all\")."
  },
  {
   "property": "C17",
   "status": "proved",
   "theorems": [
    "Verif.C17_window_accept",
    "Verif.C17_window_reject",
    "Verif.C17_window_null"
   ],
   "note": "Any string; the duplicate of the string is released in every case."
  },
  {
   "property": "C18",
   "status": "partial",
   "theorems": [
    "Verif.C18_name_accept",
    "Verif.C18_fresnelN_accept",
    "Verif.C18_accept_sound",
    "Verif.C18_reject_partial",
    "Verif.C18_reject_none_false",
    "Verif.C18_null"
   ],
   "note": "Acceptance proved completely. 'Every other string sets psinum = None' is false for 'fresnel0', 'fresnel1' (error set, psinum stays Legendre; proved)."
  },
  {
   "property": "C19",
   "status": "proved",
   "theorems": [
    "Verif.C19_range_accept",
    "Verif.C19_range_ordered",
    "Verif.C19_range_reject",
    "Verif.C19_range_null"
   ],
   "note": "The leak of the duplicated string is a separate property (C61)."
  },
  {
   "property": "C20",
   "status": "proved",
   "theorems": [
    "Verif.C20_select",
    "Verif.C20_tables_in_bounds",
    "Verif.C20_dispatch",
    "Verif.C20_only_own_transform",
    "Verif.C20_unimplemented",
    "Verif.C20_accepted_implemented"
   ],
   "note": ""
  },
  {
   "property": "C07",
   "status": "proved",
   "theorems": [
    "Verif.C07_accept",
    "Verif.C07_reject",
    "Verif.C07_nan_spacing"
   ],
   "note": "NaN-free velocities; the spacing must not be NaN for the iff, and a NaN spacing is shown to be accepted with nothing checked."
  },
  {
   "property": "C08",
   "status": "partial",
   "theorems": [
    "Verif.C08_aligned_partial",
    "Verif.C08_left_behind",
    "Verif.C08_aligned_false"
   ],
   "note": "False for decreasing radius: T_in, T_out, F and k keep the old order (proved). The ten reversed columns stay aligned."
  },
  {
   "property": "C09",
   "status": "proved",
   "theorems": [
    "Verif.C09_memory_safe",
    "Verif.C09_range_in_data",
    "Verif.C09_range_requested"
   ],
   "note": "Any arithmetic; memory safety for any contents, containment for ascending radii."
  },
  {
   "property": "C10",
   "status": "partial",
   "theorems": [
    "Verif.C10_window_fits_partial",
    "Verif.C10_even_fits",
    "Verif.C10_window_fits_false"
   ],
   "note": "Off by one: the check lets the window end one row behind the array (witness with uneven sampling). Proved up to that row for every arithmetic, and completely for even sampling without rounding."
  },
  {
   "property": "C11",
   "status": "partial",
   "theorems": [
    "Verif.C11_maximal_partial",
    "Verif.C11_last_dropped"
   ],
   "note": "False: the last usable point is always dropped (proved); exactly the others are kept when the window ends ascend."
  },
  {
   "property": "C12",
   "status": "partial",
   "theorems": [
    "Verif.C12_plain_width",
    "Verif.C12_bfac_width_partial",
    "Verif.C12_bfac_velocity_false",
    "Verif.C12_bfac_alpha_false"
   ],
   "note": "Without b-factor proved. With it false twice: velocity of row n instead of start+n, alpha of the wrong row when some P <= 1."
  },
  {
   "property": "C13",
   "status": "proved",
   "theorems": [
    "Verif.C13_second_call"
   ],
   "note": "Any arithmetic, any schedule: after a successful call the second call reports an error and leaves the arrays alone; no undefined behaviour."
  },
  {
   "property": "C14",
   "status": "partial",
   "theorems": [
    "Verif.C14_finish_partial",
    "Verif.C14_positions_false"
   ],
   "note": "All shortened columns proved. False for rx, ry, rz: Finish leaves them at their old length (proved with witness)."
  },
  {
   "property": "C38",
   "status": "partial",
   "theorems": [
    "Verif.C38_success",
    "Verif.C38_error_exit",
    "Verif.C38_failure_false"
   ],
   "note": "Success path and early error exits proved. False when the range is too small for the forward step: T_in then holds the reconstruction (proved)."
  },
  {
   "property": "C39",
   "status": "partial",
   "theorems": [
    "Verif.C39_rows_partial",
    "Verif.C39_positions_false"
   ],
   "note": "All exposed columns proved to be the rows of the processing range. False for rx, ry, rz (proved)."
  },
  {
   "property": "C32",
   "status": "partial",
   "theorems": [
    "Verif.C32_newton_partial",
    "Verif.C32_newton_false",
    "Verif.C32_fresnel_partial",
    "Verif.C32_fresnel_false"
   ],
   "note": "False in general (proved: widths 4, 6, 5). Equal results for all schedules proved when the widths stay within two samples of the first one (Newton) or are constant (Fresnel)."
  },
  {
   "property": "C34",
   "status": "partial",
   "theorems": [
    "Verif.C34_writes_partial",
    "Verif.C34_fresnel_partial",
    "Verif.C34_fresnel_false",
    "Verif.C34_legendre_false"
   ],
   "note": "Proved for all methods except Fresnel (row start+n_used is written too; proved) and forward Legendre (k is changed; proved)."
  },
  {
   "property": "C35",
   "status": "partial",
   "theorems": [
    "Verif.C35_inverse",
    "Verif.C35_forward_partial",
    "Verif.C35_false"
   ],
   "note": "False: rows 0..n_used are negated whatever start is, and stay negated (proved)."
  },
  {
   "property": "C60",
   "status": "proved",
   "theorems": [
    "Verif.C60_newton",
    "Verif.C60_interp",
    "Verif.C60_legendre",
    "Verif.C60_fresnel",
    "Verif.C60_distance",
    "Verif.C60_fresnel_initial"
   ],
   "note": "Any arithmetic and schedule; the distance as a number without rounding. Legendre: inverse direction."
  },
  {
   "property": "C33",
   "status": "partial",
   "theorems": [
    "Verif.C33_newton_partial",
    "Verif.C33_interp_partial",
    "Verif.C33_legendre_partial",
    "Verif.C33_fresnel_partial",
    "Verif.C33_stale_fits",
    "Verif.C33_selected",
    "Verif.C33_newton_false",
    "Verif.C33_filon_narrow_false",
    "Verif.C33_fresnel_false"
   ],
   "note": "Memory safety of the four drivers including their transforms proved for even sampling, windows of at least two samples and no rounding; the hypotheses follow from the range selection. False in general: a window may end one row behind the array, narrow Filon windows wrap around, the extra row of the Fresnel loop overflows the buffers (all proved)."
  },
  {
   "property": "C21",
   "status": "proved",
   "theorems": [
    "Verif.C21_fresnel_sum"
   ],
   "note": "Exact real and complex arithmetic."
  },
  {
   "property": "C22",
   "status": "proved",
   "theorems": [
    "Verif.C22_functional",
    "Verif.C22_superposition"
   ],
   "note": "All twelve transforms; exact arithmetic, and for the Filon quadratures of libtmpl only their linearity in the samples is assumed."
  },
  {
   "property": "C23",
   "status": "proved",
   "theorems": [
    "Verif.C23_riemann",
    "Verif.C23_filon",
    "Verif.C23_corrected",
    "Verif.C23_fresnel",
    "Verif.C23_legendre",
    "Verif.C23_newton"
   ],
   "note": "Every transform that normalises. Filon02, Filon12 and Newton4 contain no normalisation (see C36)."
  },
  {
   "property": "C24",
   "status": "partial",
   "theorems": [
    "Verif.C24_kernel",
    "Verif.C24_phase",
    "Verif.C24_fresnel",
    "Verif.C24_legendre",
    "Verif.C24_fwd_ignored"
   ],
   "note": "Proved for Fresnel and Legendre; for the cylindrical kernel the forward kernel is the conjugate of the inverse one with the two points exchanged. False for Newton8, Newton16, elliptical and perturbed Newton, which ignore use_fwd (proved)."
  },
  {
   "property": "C25",
   "status": "partial",
   "theorems": [
    "Verif.C25_even_partial",
    "Verif.C25_odd_partial",
    "Verif.C25_odd_actual",
    "Verif.C25_side_false",
    "Verif.C25_agree_false"
   ],
   "note": "True for even degree (both routines). False for odd degree: the polynomial is mirrored, and without normalisation from degree 5 on the two lowest terms are lost (all proved)."
  },
  {
   "property": "C26",
   "status": "proved",
   "theorems": [
    "Verif.C26_select",
    "Verif.C26_table",
    "Verif.C26_coeffs"
   ],
   "note": "Order at least 2 follows from every accepted psitype string; any arithmetic."
  },
  {
   "property": "C27",
   "status": "proved",
   "theorems": [
    "Verif.C27_eval",
    "Verif.C27_nodes",
    "Verif.C27_unique",
    "Verif.C27_scale"
   ],
   "note": ""
  },
  {
   "property": "C28",
   "status": "proved",
   "theorems": [
    "Verif.C28_newton8",
    "Verif.C28_newton16",
    "Verif.C28_centre",
    "Verif.C28_scale"
   ],
   "note": "The decimal constants are taken as the exact numbers written in the source."
  },
  {
   "property": "C29",
   "status": "partial",
   "theorems": [
    "Verif.C29_local",
    "Verif.C29_in_bounds",
    "Verif.C29_newton4_empty_false",
    "Verif.C29_newton_sum",
    "Verif.C29_newton4_sum"
   ],
   "note": "Reads stay inside the window for all twelve transforms (outputs unchanged by any edit outside it; in-bounds). The sums of Newton4/8/16 visit each window sample once. False for Newton4 with an empty window (it reads outside). 'Exactly once' is proved through the closed form of the sum, over the reals."
  },
  {
   "property": "C30",
   "status": "partial",
   "theorems": [
    "Verif.C30_width_partial",
    "Verif.C30_narrow",
    "Verif.C30_false"
   ],
   "note": "False of the code: no minimum number of points is enforced; C30_false exhibits accepted finite data turned into NaN by Newton8. C30_width_partial: with enough points the width is non-zero."
  },
  {
   "property": "C31",
   "status": "partial",
   "theorems": [
    "Verif.C31_last_ignored",
    "Verif.C31_sum_partial",
    "Verif.C31_sum_false"
   ],
   "note": "False of the code: the last sample of every window is never read (C31_last_ignored, any arithmetic); C31_sum_partial gives the sum that is computed."
  },
  {
   "property": "C36",
   "status": "partial",
   "theorems": [
    "Verif.C36_norm_honoured",
    "Verif.C36_norm_ignored",
    "Verif.C36_newton8_unscaled",
    "Verif.C36_fwd_ignored"
   ],
   "note": "False of the code for use_norm in six methods and for use_fwd in the methods listed in C36_fwd_ignored; true for Riemann, Filon01, Filon11, Fresnel (C36_norm_honoured); the use_fwd half for the kernels is C24."
  },
  {
   "property": "C15",
   "status": "partial",
   "theorems": [
    "Verif.C15_members",
    "Verif.C15_repeat",
    "Verif.C15_destroy_partial",
    "Verif.C15_false",
    "Verif.C15_null",
    "Verif.C15_shared_false"
   ],
   "note": "Destroy_Members: proved. Tau_Destroy: everything is released once, but the last clause is false for every object: the caller's pointer keeps the old address, and a second call is a use after free (C15_false)."
  },
  {
   "property": "C16",
   "status": "partial",
   "theorems": [
    "Verif.C16_partial",
    "Verif.C16_false",
    "Verif.C16_guards",
    "Verif.C16_driver"
   ],
   "note": "Proved for every allocator outcome except realloc(p,0) that releases p (glibc), where the code frees p again (C16_false). C16_driver links the pointer-level model with the list-level model used by the drivers."
  },
  {
   "property": "C37",
   "status": "partial",
   "theorems": [
    "Verif.C37_length",
    "Verif.C37_direct_sum",
    "Verif.C37_even",
    "Verif.C37_stores",
    "Verif.C37_bounds_partial",
    "Verif.C37_length_false",
    "Verif.C37_bounds_ub",
    "Verif.C37_bounds_false"
   ],
   "note": "Length, stored value and direct sum proved (sum in exact arithmetic for every exact DFT). The bounds claim is false: the method needs w/dx rows on both sides, the check only asks for half of that."
  },
  {
   "property": "C40",
   "status": "proved",
   "theorems": [
    "Verif.C40_check",
    "Verif.C40_fields",
    "Verif.C40_order"
   ],
   "note": "All six formats, every file, every behaviour of the library's column counter; C40_fields instantiates it for a counter that counts comma separated fields."
  },
  {
   "property": "C41",
   "status": "proved",
   "theorems": [
    "Verif.C41_roundtrip"
   ],
   "note": "Six formats, both format flags, any number of rows, any field texts without comma, newline and NUL. libtmpl's counters are parameters with the laws CsvLaws (libtmpl is not in the sources). A merged file whose first row begins with B/b is taken for a header (see C49); Uranus in radians is C50."
  },
  {
   "property": "C42",
   "status": "partial",
   "theorems": [
    "Verif.C42_safe_partial",
    "Verif.C42_missing_false",
    "Verif.C42_blank_false",
    "Verif.C42_empty_false",
    "Verif.C42_long_false",
    "Verif.C42_unterminated_false"
   ],
   "note": "False of the code: no malformed row after the first is ever reported; C42_safe_partial gives the exact condition for absence of undefined behaviour and what is stored then."
  },
  {
   "property": "C49",
   "status": "proved",
   "theorems": [
    "Verif.C49_header",
    "Verif.C49_same",
    "Verif.C49_header_only"
   ],
   "note": "For tables with at least one row. C49_header_only: a file with only a header gives an empty table without error."
  },
  {
   "property": "C50",
   "status": "proved",
   "theorems": [
    "Verif.C50_radians",
    "Verif.C50_degrees"
   ],
   "note": "Any table; the constant is the decimal 57.29577951308232 of the source."
  },
  {
   "property": "C44",
   "status": "partial",
   "theorems": [
    "Verif.C44_cassini",
    "Verif.C44_memory",
    "Verif.C44_uranus_false"
   ],
   "note": "Proved for Cassini (given that reading the files has no undefined behaviour, see C42). False for Uranus: every failing input leads to a NULL dereference (proved for all libraries and files)."
  },
  {
   "property": "C45",
   "status": "partial",
   "theorems": [
    "Verif.C45_side_partial",
    "Verif.C45_error",
    "Verif.C45_monotone",
    "Verif.C45_single_false"
   ],
   "note": "Classification proved for every profile, any arithmetic; C45_monotone links it to monotone radii in exact arithmetic. False for one-row profiles (and all-NaN quotients): taken for ingress."
  },
  {
   "property": "C46",
   "status": "partial",
   "theorems": [
    "Verif.C45_side_partial",
    "Verif.C46_false",
    "Verif.C46_nan_false"
   ],
   "note": "False: for every geometry without a row of the right sign the loop reads behind the array. A NaN velocity stops the loop early. Proved otherwise."
  },
  {
   "property": "C47",
   "status": "proved",
   "theorems": [
    "Verif.C47_cassini",
    "Verif.C47_uranus",
    "Verif.C47_lengths"
   ],
   "note": "For inputs read without error; libtmpl's interpolation is a parameter that returns one value per point."
  },
  {
   "property": "C48",
   "status": "partial",
   "theorems": [
    "Verif.C47_cassini",
    "Verif.C48_power",
    "Verif.C48_range"
   ],
   "note": "Row formula in any arithmetic (C47_cassini), its meaning over the reals for 0 < |B| < 180 degrees. For B = 0 it divides by zero, beyond 180 degrees sin|B| is not |sin B| (C48_range)."
  },
  {
   "property": "C51",
   "status": "partial",
   "theorems": [
    "Verif.C51_lookup",
    "Verif.C51_unique_partial",
    "Verif.C51_table",
    "Verif.C51_activity_partial",
    "Verif.C51_unique_false"
   ],
   "note": "Lookup and table bounds proved for all years and days. Uniqueness is false: one date is tabulated twice; C51_unique_partial excludes it."
  },
  {
   "property": "C52",
   "status": "partial",
   "theorems": [
    "Verif.C52_print_partial",
    "Verif.C52_full_false",
    "Verif.C52_odd_false",
    "Verif.C52_written"
   ],
   "note": "Proved for NULL-terminated lists of even positions; false for full lists and for an odd number of entries (reads behind the end). C52_written: the histories written by the library are of the good kind."
  },
  {
   "property": "C53",
   "status": "partial",
   "theorems": [
    "Verif.C53_left_partial",
    "Verif.C53_result",
    "Verif.C53_last_false"
   ],
   "note": "Proved for every edge except one equal to the last radius, where the last row gets the transmittance instead of 0 (proved for all arrays)."
  },
  {
   "property": "C54",
   "status": "partial",
   "theorems": [
    "Verif.C54_right_partial",
    "Verif.C54_complementary",
    "Verif.C54_complementary_computed",
    "Verif.C54_safe",
    "Verif.C54_last_false",
    "Verif.C54_null_false",
    "Verif.C54_empty_false"
   ],
   "note": "Same as C53; the complementarity of what is computed is proved for all arrays and edges. There is no check for missing arrays: NULL dereference (proved)."
  },
  {
   "property": "C55",
   "status": "partial",
   "theorems": [
    "Verif.C55_profile_partial",
    "Verif.C55_false"
   ],
   "note": "False: sine-wave parameters are always rejected, left-edge parameters are accepted; for these the profile is proved."
  },
  {
   "property": "C56",
   "status": "partial",
   "theorems": [
    "Verif.C56_settings_partial",
    "Verif.C56_range_false",
    "Verif.C56_error_false"
   ],
   "note": "use_fwd is restored after success; start and n_used are not, and after an error use_fwd may stay set (proved)."
  },
  {
   "property": "C65",
   "status": "partial",
   "theorems": [
    "Verif.C65_perturbed",
    "Verif.C65_unperturbed",
    "Verif.C65_ellipse",
    "Verif.C65_circular",
    "Verif.C65_elliptical_partial",
    "Verif.C65_elliptical_false"
   ],
   "note": "The perturbed method is as stated. The elliptical method takes the cosine of degrees as if they were radians (C65_elliptical_false); C65_elliptical_partial says what it computes instead, C65_circular that this is harmless for eccentricity 0."
  },
  {
   "property": "C43",
   "status": "partial",
   "theorems": [
    "Verif.C43_cassini_partial",
    "Verif.C43_complete",
    "Verif.C43_copy_false",
    "Verif.C43_tau_false",
    "Verif.C43_uranus_false"
   ],
   "note": "Ownership of every block for all files and all patterns of failing allocations. Cassini: true except in two situations, a failing allocation of an array for an interpolated column (double free, proved for all inputs) and of the tau object (12 or 13 arrays leaked, proved). Uranus: true when everything is read, otherwise NULL dereference (proved). The contents of the rows are C42."
  },
  {
   "property": "C57",
   "status": "partial",
   "theorems": [
    "Verif.C57_range_partial",
    "Verif.C57_guard",
    "Verif.C57_overflow_false",
    "Verif.C57_subclass_false"
   ],
   "note": "Proved for plain lists and integers that fit into a double. False otherwise: a larger integer is stored as -1 without error in the tau object, and a list subclass that iterates over fewer than two elements causes a NULL dereference (both proved)."
  },
  {
   "property": "C58",
   "status": "partial",
   "theorems": [
    "Verif.C58_perturb_partial",
    "Verif.C58_overflow_false",
    "Verif.C58_subclass_false"
   ],
   "note": "Same restrictions and counterexamples as C57."
  },
  {
   "property": "C59",
   "status": "partial",
   "theorems": [
    "Verif.C59_extract_partial",
    "Verif.C59_dlp_partial",
    "Verif.C59_faithful",
    "Verif.C59_notArray_false",
    "Verif.C59_badArray_false"
   ],
   "note": "False: an attribute that is not an array, or not convertible to one dimension of doubles, leads to a NULL dereference (proved for all such objects). Missing attributes and wrong lengths are reported (C59_dlp_partial); without error the arrays are exactly the attributes (C59_faithful)."
  },
  {
   "property": "C66",
   "status": "partial",
   "theorems": [
    "Verif.C66_exception_partial",
    "Verif.C66_settings",
    "Verif.C66_noarg_false",
    "Verif.C66_history_false",
    "Verif.C66_leak_false",
    "Verif.C66_overflow_false"
   ],
   "note": "Exceptions and settings are proved for all arguments. False: no argument at all (uninitialised pointer), missing history (NULL dereference), the C object of the DLP data is never freed when the reconstruction fails, overflow of an integer leaves an exception pending behind a success. Reference counts are not modelled."
  },
  {
   "property": "C61",
   "status": "partial",
   "theorems": [
    "Verif.C61_window",
    "Verif.C61_psi",
    "Verif.C61_range_partial",
    "Verif.C61_range_false",
    "Verif.C61_range_grows_false"
   ],
   "note": "True of the window and the method setter. False of the range setter: every string leaks its copy, and a failed copy is undefined behaviour."
  },
  {
   "property": "C62",
   "status": "partial",
   "theorems": [
    "Verif.C62_drivers_partial",
    "Verif.C62_drivers_zero_false",
    "Verif.C62_gww_false",
    "Verif.C62_gww_unchecked_false"
   ],
   "note": "Drivers: everything is released for all failure patterns, except a double free when glibc's realloc resizes a window array to 0 elements. Tau_Get_Window_Width: at least two blocks are lost in every run that passes the range checks, and no allocation is checked (both proved for all runs)."
  },
  {
   "property": "C64",
   "status": "partial",
   "theorems": [
    "Verif.C64_create",
    "Verif.C64_recon_partial",
    "Verif.C64_recon_safe",
    "Verif.C64_destroy",
    "Verif.C64_life_partial",
    "Verif.C64_false"
   ],
   "note": "Single ownership, no double free, no use after free, complete destruction: proved. Not back to the starting heap: the exact number of lost blocks is proved, and it is positive in every normal run. C64_recon_safe and C64_life_partial assume that all allocations succeed (see C62_gww_unchecked_false for what happens otherwise)."
  },
  {
   "property": "C68",
   "status": "proved",
   "theorems": [
    "Verif.Rsr.C68_layout",
    "Verif.Rsr.C68_short"
   ],
   "note": "Proved for all byte strings."
  },
  {
   "property": "C69",
   "status": "partial",
   "theorems": [
    "Verif.Rsr.C69_samples",
    "Verif.Rsr.C69_bias_partial",
    "Verif.Rsr.C69_minimum_false",
    "Verif.Rsr.C69_8bit_false"
   ],
   "note": "Without bias correction proved for all well-formed files. With it, false for the sample -32768 (becomes 65537 in every file); false for files with 8 bits per sample (struct.error)."
  },
  {
   "property": "C70",
   "status": "proved",
   "theorems": [
    "Verif.Rsr.C70_times"
   ],
   "note": "Proved for all well-formed files and every rounding that satisfies the IEEE error bounds (structure Ieee)."
  },
  {
   "property": "C71",
   "status": "partial",
   "theorems": [
    "Verif.Rsr.C71_decimation",
    "Verif.Rsr.C71_rate_false"
   ],
   "note": "Proved for all keyword combinations for 1, 16 and 50 kHz, given the number of elements that scipy.signal.decimate returns. False for the other rates of the receiver (UnboundLocalError for every such file)."
  },
  {
   "property": "C72",
   "status": "partial",
   "theorems": [
    "Verif.Rsr.C72_sky_partial",
    "Verif.Rsr.C72_boundary_false"
   ],
   "note": "Proved in exact arithmetic for lists that do not begin less than half a sample before a block; for every such list the function raises IndexError."
  },
  {
   "property": "C73",
   "status": "partial",
   "theorems": [
    "Verif.Rsr.C73_date",
    "Verif.Rsr.C73_track_partial",
    "Verif.Rsr.C73_track_false"
   ],
   "note": "Date and stations proved. The tracking mode is false for every header with year 0: it is chosen before the year is corrected."
  },
  {
   "property": "C74",
   "status": "partial",
   "theorems": [
    "Verif.Rsr.C74_utc_partial",
    "Verif.Rsr.C74_array",
    "Verif.Rsr.C74_minute_false",
    "Verif.Rsr.C74_century_false",
    "Verif.Rsr.C74_kernels_false"
   ],
   "note": "Proved up to the end of the following year, except: valid text less than 5e-14 s before a full minute (the text says 60 s, for every such time), century years that are not leap years, and a call without the optional keyword kernels (NameError for every input)."
  },
  {
   "property": "C75",
   "status": "partial",
   "theorems": [
    "Verif.Rsr.C75_day_partial",
    "Verif.Rsr.C75_monotone",
    "Verif.Rsr.C75_midnight_false",
    "Verif.Rsr.C75_year_false"
   ],
   "note": "Proved for lists within one day. For every list that passes midnight the later results are too small by the time left before midnight; a reference day in the year before is rejected."
  },
  {
   "property": "C76",
   "status": "partial",
   "theorems": [
    "Verif.Rsr.C76_round_trip_partial",
    "Verif.Rsr.C76_midnight_false"
   ],
   "note": "Proved for lists within one day; false with any SPICE for lists that pass midnight."
  },
  {
   "property": "C77",
   "status": "proved",
   "theorems": [
    "Verif.Geo.C77_fresnel",
    "Verif.Geo.C77_distance"
   ],
   "note": "Proved in exact real arithmetic; the phase is the second-order expansion of the kernel (Spec/GeoReal.lean)."
  },
  {
   "property": "C78",
   "status": "partial",
   "theorems": [
    "Verif.Geo.C78_effective_partial",
    "Verif.Geo.C78_degrees_false"
   ],
   "note": "Formulas proved for all angles. The unit is false: the angle is returned in radians, documented in degrees."
  },
  {
   "property": "C79",
   "status": "proved",
   "theorems": [
    "Verif.Geo.C79_azimuth",
    "Verif.Geo.C79_opening",
    "Verif.Geo.C79_pole",
    "Verif.Geo.C79_direction"
   ],
   "note": "Proved in exact real arithmetic for all positions and unit poles that are not along the third axis of J2000 (where ucrss of the code is undefined)."
  },
  {
   "property": "C80",
   "status": "proved",
   "theorems": [
    "Verif.Geo.C80_frame",
    "Verif.Geo.C80_impact"
   ],
   "note": "Proved in exact real arithmetic, poles as in C79."
  },
  {
   "property": "C81",
   "status": "partial",
   "theorems": [
    "Verif.Geo.C81_velocity_partial",
    "Verif.Geo.C81_quadratic",
    "Verif.Geo.C81_wrap_false"
   ],
   "note": "Proved for all differentiable motions with a continuous longitude. False for every motion whose longitude passes 360 degrees at an inner pair of samples."
  },
  {
   "property": "C82",
   "status": "partial",
   "theorems": [
    "Verif.Geo.C82_split_partial",
    "Verif.Geo.C82_late_false",
    "Verif.Geo.C82_symmetric_false"
   ],
   "note": "Proved when the radius after the minimum is greater than the one before it; one too large for every chord in which it is smaller, an array of two indices when they are equal."
  },
  {
   "property": "C83",
   "status": "partial",
   "theorems": [
    "Verif.Geo.C83_monotone",
    "Verif.Geo.C83_chord_partial",
    "Verif.Geo.C83_beyond_false",
    "Verif.Geo.C83_gap_false",
    "Verif.Geo.C83_order_false",
    "Verif.Geo.C83_late_false"
   ],
   "note": "Proved for monotonic radii, and for chords split at the right place within 170000 km with one blocked interval. False otherwise, see the four theorems."
  },
  {
   "property": "C84",
   "status": "partial",
   "theorems": [
    "Verif.Geo.C84_blocked_partial",
    "Verif.Geo.C84_split",
    "Verif.Geo.C84_inexact_false"
   ],
   "note": "Proved for the list of times given. False for blocked times that changed on the way through SPICE, by however little: nothing is removed."
  },
  {
   "property": "C85",
   "status": "partial",
   "theorems": [
    "Verif.Geo.C85_restore",
    "Verif.Geo.C85_blocked_partial",
    "Verif.Geo.C85_atmos_false",
    "Verif.Geo.C85_second_false",
    "Verif.Geo.C85_failed_false"
   ],
   "note": "The flat ellipsoid is removed and the ionosphere is right. The atmosphere is computed with radii 5500 km larger for all kernels and times; a failed intercept leaves the flat ellipsoid."
  },
  {
   "property": "C86",
   "status": "partial",
   "theorems": [
    "Verif.Geo.C86_radius_partial",
    "Verif.Geo.C86_circular",
    "Verif.Geo.C86_oscillates_false"
   ],
   "note": "Complete description of the iteration; false only when it does not converge, which is silent."
  },
  {
   "property": "C87",
   "status": "proved",
   "theorems": [
    "Verif.Geo.C87_gaps",
    "Verif.Geo.C87_regions"
   ],
   "note": "Proved for all profiles, in exact arithmetic, with any function between -1 and 1 as cosine."
  },
  {
   "property": "C88",
   "status": "partial",
   "theorems": [
    "Verif.Geo.C88_radial_partial",
    "Verif.Geo.C88_chord_partial",
    "Verif.Geo.C88_late_false"
   ],
   "note": "Proved for one direction and for chords split where they turn; false of chords split late (C82)."
  },
  {
   "property": "C89",
   "status": "partial",
   "theorems": [
    "Verif.Geo.C89_mask",
    "Verif.Geo.C89_rows_partial",
    "Verif.Geo.C89_position_false",
    "Verif.Geo.C89_velocity_false"
   ],
   "note": "The mask is right for all positions. False of impact radius and velocity as soon as rows are removed before the end."
  },
  {
   "property": "C90",
   "status": "partial",
   "theorems": [
    "Verif.Cal.C90_radii_partial",
    "Verif.Cal.C90_direction",
    "Verif.Cal.C90_rounded_false",
    "Verif.Cal.C90_short_false",
    "Verif.Cal.C90_multiples_false"
   ],
   "note": "Complete description of the radii. False for samplings that are not multiples of 1 m, for profiles shorter than half a kilometre, and for integers that are not multiples of the sampling."
  },
  {
   "property": "C91",
   "status": "partial",
   "theorems": [
    "Verif.Cal.C91_linear_partial",
    "Verif.Cal.C91_edge_false",
    "Verif.Cal.C91_drift_false"
   ],
   "note": "Proved away from the edges for samplings of whole thousandths of a kilometre. False at the edges for every filter, and for samplings that are rounded."
  },
  {
   "property": "C92",
   "status": "partial",
   "theorems": [
    "Verif.Cal.C92_times_partial",
    "Verif.Cal.C92_times_false"
   ],
   "note": "Proved when the factor divides the number of samples less one; false otherwise."
  },
  {
   "property": "C93",
   "status": "partial",
   "theorems": [
    "Verif.Cal.C93_mask",
    "Verif.Cal.C93_shared_false"
   ],
   "note": "The mask is proved for all inputs. False that the list of regions is left as it is."
  },
  {
   "property": "C94",
   "status": "partial",
   "theorems": [
    "Verif.Cal.C94_fit_partial",
    "Verif.Cal.C94_exact",
    "Verif.Cal.C94_negative_false",
    "Verif.Cal.C94_chi_false"
   ],
   "note": "Least squares proved for all inputs; leastSquares_exists shows that the assumption on np.polyfit can be met. False that the fit is never negative and that chi squared uses the final order."
  },
  {
   "property": "C95",
   "status": "partial",
   "theorems": [
    "Verif.Cal.C95_samples_partial",
    "Verif.Cal.C95_last_false",
    "Verif.Cal.C95_between_false"
   ],
   "note": "Complete description when the geometry begins and ends at samples. False for the last sample, which is lost, and for a geometry that begins between samples (IndexError)."
  },
  {
   "property": "C96",
   "status": "partial",
   "theorems": [
    "Verif.Cal.C96_range_partial",
    "Verif.Cal.C96_outside_false",
    "Verif.Cal.C96_limits_false"
   ],
   "note": "All radii of the range are kept; false at the limits, where one radius at most half a step outside may be kept, and data at the limits alone are refused."
  },
  {
   "property": "C97",
   "status": "partial",
   "theorems": [
    "Verif.Cal.C97_rows_partial",
    "Verif.Cal.C97_longitude_false"
   ],
   "note": "Proved for all columns that are interpolated as numbers; false as a statement about directions where the longitude passes 360 degrees."
  },
  {
   "property": "C98",
   "status": "partial",
   "theorems": [
    "Verif.Cal.C98_velocity_partial",
    "Verif.Cal.C98_wrong_false",
    "Verif.Cal.C98_both_false"
   ],
   "note": "Proved when at least one row has the right sign (rows of velocity 0 are kept). If none has, all wrong rows are kept; both directions end in UnboundLocalError."
  },
  {
   "property": "C99",
   "status": "partial",
   "theorems": [
    "Verif.Cal.C99_tau_partial",
    "Verif.Cal.C99_threshold",
    "Verif.Cal.C99_noise",
    "Verif.Cal.C99_south_false",
    "Verif.Cal.C99_resolution_false",
    "Verif.Cal.C99_short_false"
   ],
   "note": "Proved for positive opening angles. False for negative ones (optical depth has the wrong sign), for the threshold of the stated resolution (lower by sin|B| ln 2), and for records shorter than 2000 s, whose rings count as noise."
  },
  {
   "property": "C100",
   "status": "partial",
   "theorems": [
    "Verif.Cal.C100_rows",
    "Verif.Cal.C100_trim",
    "Verif.Cal.C100_chord_partial",
    "Verif.Cal.C100_names_false",
    "Verif.Cal.C100_caller_false",
    "Verif.Cal.C100_grid_false"
   ],
   "note": "Rows proved for all chords. Names right only for chords that come inwards first; the raw data of the caller are changed; samples off the whole second raise IndexError."
  },
  {
   "property": "C101",
   "status": "proved",
   "theorems": [
    "Verif.Cal.C101_rate",
    "Verif.Cal.C101_factor"
   ],
   "note": "For all motions with non-vanishing distances; ephemerides are functions of time."
  },
  {
   "property": "C102",
   "status": "partial",
   "theorems": [
    "Verif.Cal.C102_oneway",
    "Verif.Cal.C102_multiway",
    "Verif.Cal.C102_clock",
    "Verif.Cal.C102_turn_partial",
    "Verif.Cal.C102_ratios",
    "Verif.Cal.C102_turn_false"
   ],
   "note": "Frequencies and clocks proved; false for three pairs of bands, whose ratio is 0."
  },
  {
   "property": "C103",
   "status": "partial",
   "theorems": [
    "Verif.Cal.C103_power",
    "Verif.Cal.C103_constant",
    "Verif.Cal.C103_linear_partial",
    "Verif.Cal.C103_changing_false"
   ],
   "note": "Proved for constant offsets; an offset that grows by g Hz per second leaves g/200 Hz, because rectangles are summed."
  },
  {
   "property": "C104",
   "status": "partial",
   "theorems": [
    "Verif.Cal.C104_offsets",
    "Verif.Cal.C104_fine_partial",
    "Verif.Cal.C104_bin",
    "Verif.Cal.C104_frequencies",
    "Verif.Cal.C104_three_false",
    "Verif.Cal.C104_limits_false"
   ],
   "note": "Proved for windows of at least four samples and tones that lie on one of the 401 fine frequencies around the coarse peak. False for three samples; a window may lie after the requested end."
  },
  {
   "property": "C105",
   "status": "partial",
   "theorems": [
    "Verif.Cal.C105_clip",
    "Verif.Cal.C105_neighbors",
    "Verif.Cal.C105_mask_partial",
    "Verif.Cal.C105_lonely_false",
    "Verif.Cal.C105_ends_false",
    "Verif.Cal.C105_rings_false"
   ],
   "note": "Both passes characterised exactly for all lists. False at the first three and the last two values, and for values in the rings that pass the other conditions."
  },
  {
   "property": "C106",
   "status": "partial",
   "theorems": [
    "Verif.Cal.C106_order",
    "Verif.Cal.C106_exact",
    "Verif.Cal.C106_quadratic",
    "Verif.Cal.C106_odd_false"
   ],
   "note": "Order characterised for all data; parabolas found. False for cubics with symmetric data, which get order 1."
  },
  {
   "property": "C107",
   "status": "partial",
   "theorems": [
    "Verif.Cal.C107_parabola",
    "Verif.Cal.C107_list",
    "Verif.Cal.C107_cusp_partial",
    "Verif.Cal.C107_jump_false",
    "Verif.Cal.C107_gap_false"
   ],
   "note": "Changes of slope are found. False for jumps, which are never found on a straight line with equal spacing, and the second derivative of a straight line is not 0 where times are missing."
  },
  {
   "property": "C108",
   "status": "partial",
   "theorems": [
    "Verif.Cal.C108_exact_partial",
    "Verif.Cal.C108_chi",
    "Verif.Cal.C108_cubic_false",
    "Verif.Cal.C108_ends_false",
    "Verif.Cal.C108_chi_false"
   ],
   "note": "Proved for straight lines and parabolas with at least six marked data. False for cubics; first and last marked data are not used after 2010; the measure of the fit can be negative."
  },
  {
   "property": "C109",
   "status": "partial",
   "theorems": [
    "Verif.PyHist.C109_date_partial",
    "Verif.PyHist.C109_fails",
    "Verif.PyHist.C109_direction_partial",
    "Verif.PyHist.C109_direction_table",
    "Verif.PyHist.C109_date_false",
    "Verif.PyHist.C109_number_false"
   ],
   "note": "Proved for dates of events and for days on which no event happened in any year. False where the nearest day of the year is also the day of an event of another year (IndexError) and for 2017 day 135, which gives PER."
  },
  {
   "property": "C110",
   "status": "partial",
   "theorems": [
    "Verif.Chk.C110_psitype",
    "Verif.Chk.C110_cleaned",
    "Verif.Chk.C110_number",
    "Verif.Chk.C110_orders",
    "Verif.Chk.C110_window",
    "Verif.Chk.C110_window_conv",
    "Verif.Chk.C110_region",
    "Verif.Chk.C110_fresnel_partial",
    "Verif.Chk.C110_positive_partial",
    "Verif.Chk.C110_list_partial",
    "Verif.Chk.C110_angle_partial",
    "Verif.Chk.C110_degrees_partial",
    "Verif.Chk.C110_newton_false",
    "Verif.Chk.C110_refused_false",
    "Verif.Chk.C110_order_false",
    "Verif.Chk.C110_digits_false",
    "Verif.Chk.C110_positive_false",
    "Verif.Chk.C110_list_false",
    "Verif.Chk.C110_angle_false"
   ],
   "note": "Accepted texts characterised exactly. False: newton is accepted here and refused by the library, other methods the reverse; even orders up to 256; signs and underscores; NaN; lists that are not ordered; angles slightly above a full turn."
  },
  {
   "property": "C111",
   "status": "partial",
   "theorems": [
    "Verif.Spc.C111_stack",
    "Verif.Spc.C111_groups_partial",
    "Verif.Spc.C111_size",
    "Verif.Spc.C111_sort",
    "Verif.Spc.C111_options_partial",
    "Verif.Spc.C111_length",
    "Verif.Spc.C111_groups_false",
    "Verif.Spc.C111_rate_false",
    "Verif.Spc.C111_options_false",
    "Verif.Spc.C111_hires_false",
    "Verif.Spc.C111_header_false"
   ],
   "note": "Stacking and sorting characterised for all input. False: last group for multiples of the size; sampling frequency n/(n-1) too great; high resolution fails with NameError; options; header."
  },
  {
   "property": "C112",
   "status": "partial",
   "theorems": [
    "Verif.Orb.C112_frequencies",
    "Verif.Orb.C112_expansion",
    "Verif.Orb.C112_fixed_partial",
    "Verif.Orb.C112_inverse",
    "Verif.Orb.C112_circular",
    "Verif.Orb.C112_axis",
    "Verif.Orb.C112_angles",
    "Verif.Orb.C112_cylindrical",
    "Verif.Orb.C112_result_partial",
    "Verif.Orb.C112_kepler",
    "Verif.Orb.C112_modulo_partial",
    "Verif.Orb.C112_modulo_false"
   ],
   "note": "Fixed points of the loop and positions with velocities correspond; that 101 turns reach the fixed point is proved for circular orbits and for the semi-major axis without oblateness only. False: the modulo function for negative arguments."
  },
  {
   "property": "C113",
   "status": "partial",
   "theorems": [
    "Verif.Titan.C113_particle",
    "Verif.Titan.C113_bound",
    "Verif.Titan.C113_default",
    "Verif.Titan.C113_turns",
    "Verif.Titan.C113_short",
    "Verif.Titan.C113_ends",
    "Verif.Titan.C113_wrap_false"
   ],
   "note": "Proved for records of at most nmax samples and for the ends of longer ones. False for longer ones whose longitude passes 360 degrees."
  },
  {
   "property": "C114",
   "status": "partial",
   "theorems": [
    "Verif.Out.C114_fresh",
    "Verif.Out.C114_next",
    "Verif.Out.C114_stray",
    "Verif.Out.C114_directory_name",
    "Verif.Out.C114_directory_partial",
    "Verif.Out.C114_chord",
    "Verif.Out.C114_wrap_false",
    "Verif.Out.C114_suffix_false",
    "Verif.Out.C114_directory_false"
   ],
   "note": "Proved for all directories while the number is not 0000 and the ending has no underscore. False after 9999 files, with suffixes that contain an underscore, and for the directory of TAU files of revs 53-89."
  },
  {
   "property": "C115",
   "status": "partial",
   "theorems": [
    "Verif.Pds.C115_text",
    "Verif.Pds.C115_fits",
    "Verif.Pds.C115_line_partial",
    "Verif.Pds.C115_wide",
    "Verif.Pds.C115_overflow_false",
    "Verif.Pds.C115_tauUl_false",
    "Verif.Pds.C115_names_partial",
    "Verif.Pds.C115_names_false"
   ],
   "note": "Proved for six of the seven kinds of files while each number fits its column, with an exact condition. False: files of profiles with uplink always end in TypeError; a frequency offset of -100 Hz or less moves the next columns; azimuth in the DLP label has another name and corrections of the radius have no unit."
  },
  {
   "property": "C116",
   "status": "partial",
   "theorems": [
    "Verif.Pds.C116_time_exact",
    "Verif.Pds.C116_time_partial",
    "Verif.Pds.C116_interval_partial",
    "Verif.Pds.C116_direction",
    "Verif.Pds.C116_radius",
    "Verif.Pds.C116_time_false",
    "Verif.Pds.C116_midnight_false",
    "Verif.Pds.C116_order_false",
    "Verif.Pds.C116_interval_false"
   ],
   "note": "Times proved in exact arithmetic, and to one second with any rounding of relative error 2^-53; direction and radii for all lists. False: 57 s is shown as 56 s with IEEE rounding; times of the day before or after; start after stop for rows in the order of falling times; UnboundLocalError when the interval changes."
  },
  {
   "property": "C117",
   "status": "partial",
   "theorems": [
    "Verif.Pds.C117_header",
    "Verif.Pds.C117_kernels",
    "Verif.Pds.C117_quotes_partial",
    "Verif.Pds.C117_args_partial",
    "Verif.Pds.C117_open",
    "Verif.Pds.C117_quotes_false",
    "Verif.Pds.C117_args_false"
   ],
   "note": "Header and kernels proved for all labels; quotation marks and braces characterised exactly. False: a label without a history has a quotation mark too many; a single long argument, such as the path of the raw data, a single history and a long last argument without comma leave the brace open."
  },
  {
   "property": "C118",
   "status": "partial",
   "theorems": [
    "Verif.C118_create_partial",
    "Verif.C118_life_partial",
    "Verif.C118_full",
    "Verif.C118_fail_cassini_partial",
    "Verif.C118_merged",
    "Verif.C118_leak_false",
    "Verif.C118_reinit_false",
    "Verif.C118_capsule_false",
    "Verif.C118_noname_false",
    "Verif.C118_noname_merged_false"
   ],
   "note": "Ownership and release proved for all heaps, files and numbers of held references, for all three classes, while Python's own allocations succeed. False parts proved: the structure of C and the history are lost, a second __init__ loses the arrays of the first, a failing capsule is reported as success, and a call without file names is undefined."
  },
  {
   "property": "C119",
   "status": "partial",
   "theorems": [
    "Verif.C119_create_partial",
    "Verif.C119_life_partial",
    "Verif.C119_reconstruction_partial",
    "Verif.C119_k_false",
    "Verif.C119_dicts_false",
    "Verif.C119_fail_false",
    "Verif.C119_null_false",
    "Verif.C119_history_false",
    "Verif.C119_inputs_false"
   ],
   "note": "Taking over and releasing proved for all heaps, pointers and numbers of held references, when Python objects can be allocated and the DLP object has a history. False: the array of k_vals is never released (no line in the destructor); both dictionaries keep a reference; the DLP structure is lost on every failure; every input array keeps two references; without a history the behaviour is undefined."
  },
  {
   "property": "C120",
   "status": "partial",
   "theorems": [
    "Verif.Fit.C120_start",
    "Verif.Fit.C120_flag_partial",
    "Verif.Fit.C120_nodata",
    "Verif.Fit.C120_interp_partial",
    "Verif.Fit.C120_velocity_is",
    "Verif.Fit.C120_velocity_partial",
    "Verif.Fit.C120_time_partial",
    "Verif.Fit.C120_time_next",
    "Verif.Fit.C120_fit_partial",
    "Verif.Fit.C120_fit_velocity_false",
    "Verif.Fit.C120_limits_false",
    "Verif.Fit.C120_names_false",
    "Verif.Fit.C120_flag_false",
    "Verif.Fit.C120_nodata_false",
    "Verif.Fit.C120_interp_false",
    "Verif.Fit.C120_ingress_false",
    "Verif.Fit.C120_velocity_false",
    "Verif.Fit.C120_time_false"
   ],
   "note": "Limits, first guess and flag 1 proved for all inputs; flags for residuals below 1; interpolated values for rising radii; the velocity characterised for all rising and falling radii and right for constant velocity; the time of the day up to a second of 60. False: limits without the guess are a TypeError; names with an ending pass the check and fail; flags for residuals of 1 or more; five rows for four parameters; every ingress feature gets the times of the last row; the velocity is the mean since the first sample; seconds 60, hour 24, day 366."
  },
  {
   "property": "C121",
   "status": "partial",
   "theorems": [
    "Verif.Fit.C121_logistic",
    "Verif.Fit.C121_gauss",
    "Verif.Fit.C121_lorentz_partial",
    "Verif.Fit.C121_lorentz_false",
    "Verif.Fit.C121_bounds_false",
    "Verif.Fit.C121_amplitude_false"
   ],
   "note": "Proved over the reals for all positive L and k. False: the area of the Lorentzian is L times the square root of pi; k is not bounded below and negative values give NaN; the amplitude minus the free level is neither the step of the edge nor the height of the Gaussian. The Voigt profile is not modelled (scipy's wofz)."
  },
  {
   "property": "C122",
   "status": "partial",
   "theorems": [
    "Verif.Rev.C122_lines",
    "Verif.Rev.C122_label",
    "Verif.Rev.C122_roundtrip_partial",
    "Verif.Rev.C122_history_partial",
    "Verif.Rev.C122_uplink_false",
    "Verif.Rev.C122_path_false",
    "Verif.Rev.C122_quotes_false",
    "Verif.Rev.C122_history_false"
   ],
   "note": "Proved for all occultations and labels when the path ends with a slash and contains neither Rev nor TAB. False: after 2010 no file can be written from the description read back (KeyError: the uplink station is missing); Rev or TAB in the path give a wrong number or hide the label; the raw file gets quotation marks, once in TAU and twice in DLP labels, and the station loses DSS-; a label without the history line ends in UnboundLocalError."
  },
  {
   "property": "C123",
   "status": "partial",
   "theorems": [
    "Verif.Pds.C123_roundtrip_partial",
    "Verif.Pds.C123_uplink_false",
    "Verif.Pds.C123_frequency_false"
   ],
   "note": "Proved for all tables without uplink columns. False: tables with uplink columns (24 or 18) are refused for both formats of the reader; the library subtracts the offset from the sky frequency, so it works with the reconstructed frequency while the calibration and DLP objects hold reconstructed frequency plus offset."
  },
  {
   "property": "C124",
   "status": "proved",
   "theorems": [
    "Verif.Pds.C124_amplitude",
    "Verif.Pds.C124_phase",
    "Verif.Pds.C124_before",
    "Verif.Pds.C124_rounded",
    "Verif.Pds.C124_depth",
    "Verif.Pds.C124_depth_rounded",
    "Verif.Pds.C124_threshold"
   ],
   "note": "Over the real and complex numbers; the sign of zero is not modelled."
  },
  {
   "property": "C125",
   "status": "partial",
   "theorems": [
    "Verif.Batch.C125_tiles",
    "Verif.Batch.C125_empty",
    "Verif.Batch.C125_endless",
    "Verif.Batch.C125_workers",
    "Verif.Batch.C125_once",
    "Verif.Batch.C125_complete_partial",
    "Verif.Batch.C125_lost_false",
    "Verif.Batch.C125_merge_partial",
    "Verif.Batch.C125_merge_false"
   ],
   "note": "Proved for all ranges with a positive piece length, when every limit between two pieces is the radius of a row and every piece has two rows. False: a limit between two rows loses the row before it; a piece with a single row stops the merging; without a positive length the loop never ends."
  },
  {
   "property": "C126",
   "status": "partial",
   "theorems": [
    "Verif.Out.C126_tau_near",
    "Verif.Out.C126_tau_partial",
    "Verif.Out.C126_tau_false",
    "Verif.Out.C126_dlp_partial",
    "Verif.Out.C126_dlp_false",
    "Verif.Out.C126_read_partial",
    "Verif.Out.C126_read_false",
    "Verif.Out.C126_missing",
    "Verif.Out.C126_valid_partial",
    "Verif.Out.C126_valid_false",
    "Verif.Out.C126_choice_partial",
    "Verif.Out.C126_choice_false",
    "Verif.Out.C126_found",
    "Verif.Out.C126_found_false"
   ],
   "note": "Names proved exact up to 1 km with doubles and to one metre for every rounding; reading proved for four digits, the check in exact arithmetic, the choice from 10 m on. False: 1001 m is named 1000 m; 10 km is read as 1 km; 0.1 km from a file of 70 m with factor 0.7 is refused; the pattern for 10 m also finds 110 m."
  },
  {
   "property": "C127",
   "status": "partial",
   "theorems": [
    "Verif.Out.C127_version_partial",
    "Verif.Out.C127_free",
    "Verif.Out.C127_ends",
    "Verif.Out.C127_overflow_false",
    "Verif.Out.C127_noversion",
    "Verif.Out.C127_pair_partial",
    "Verif.Out.C127_pair_false",
    "Verif.Out.C127_pointer_false"
   ],
   "note": "Proved for numbers below 10000, and for directories where table and label exist together. False: from 10000 on digits of old numbers stay in the name; a table without a label gives different numbers; with the range in the name or a later version the label's pointer names another file."
  },
  {
   "property": "C128",
   "status": "partial",
   "theorems": [
    "Verif.Out.C128_rows_partial",
    "Verif.Out.C128_comment_false",
    "Verif.Out.C128_name",
    "Verif.Out.C128_name_false",
    "Verif.Out.C128_resolution",
    "Verif.Out.C128_file_partial",
    "Verif.Out.C128_kept",
    "Verif.Out.C128_stale_false",
    "Verif.Out.C128_label_false",
    "Verif.Out.C128_directory_false"
   ],
   "note": "Rows proved for tables without comments and empty lines, names for limits in whole kilometres. False: a comment shifts the rows; limits that differ by less than a kilometre share a file, which is not rewritten; the label is a copy (number of rows, and lines end with LF only); TAB in a directory breaks the path of the label."
  },
  {
   "property": "C129",
   "status": "partial",
   "theorems": [
    "Verif.Out.C129_line_partial",
    "Verif.Out.C129_file_partial",
    "Verif.Out.C129_kept",
    "Verif.Out.C129_trajectory_false",
    "Verif.Out.C129_width_false",
    "Verif.Out.C129_sign_false"
   ],
   "note": "Proved for old and new corrections that fit in nine characters (above -10 km and below 100 km). False: -10 km makes the line longer by one; an old sign stays before a new number; the trajectory alone is an UnboundLocalError."
  },
  {
   "property": "C130",
   "status": "partial",
   "theorems": [
    "Verif.Thr.C130_constant",
    "Verif.Thr.C130_power",
    "Verif.Thr.C130_snr",
    "Verif.Thr.C130_resolution",
    "Verif.Thr.C130_uniform",
    "Verif.Thr.C130_branch",
    "Verif.Thr.C130_first",
    "Verif.Thr.C130_elevation_false"
   ],
   "note": "Over the real numbers. False: only the elevation of the first point is used, so that at a point with another elevation the threshold is that of the first."
  },
  {
   "property": "C131",
   "status": "partial",
   "theorems": [
    "Verif.Thr.C131_found_partial",
    "Verif.Thr.C131_value_partial",
    "Verif.Thr.C131_absent",
    "Verif.Thr.C131_label",
    "Verif.Thr.C131_chain_partial",
    "Verif.Thr.C131_empty_false",
    "Verif.Thr.C131_column_false",
    "Verif.Thr.C131_part_false"
   ],
   "note": "Proved for names at least as long as the other texts of the table, as those of the table are. False: labels aligned at another column give an empty name, which fails with ValueError, or one with other characters, which gives NaN; a part of a name gives the first row that contains it."
  },
  {
   "property": "C132",
   "status": "partial",
   "theorems": [
    "Verif.Thr.C132_exact",
    "Verif.Thr.C132_choice",
    "Verif.Thr.C132_events_partial",
    "Verif.Thr.C132_later",
    "Verif.Thr.C132_table",
    "Verif.Thr.C132_egress_false",
    "Verif.Thr.C132_date_false"
   ],
   "note": "The choice is characterised for all dates. False: all days of 2010 except day 26 use the Rev133+ set, among them day 27 with the egress of rev 125."
  },
  {
   "property": "C133",
   "status": "partial",
   "theorems": [
    "Verif.Args.C133_accept",
    "Verif.Args.C133_unknown",
    "Verif.Args.C133_order",
    "Verif.Args.C133_values",
    "Verif.Args.C133_starts",
    "Verif.Args.C133_missing_false",
    "Verif.Args.C133_sites_false",
    "Verif.Args.C133_sites_partial",
    "Verif.Args.C133_attributes_false"
   ],
   "note": "The interface is characterised for all calls. False: a call without dlp is accepted and then uses an uninitialised pointer; 21 of the 41 calls in tools, pipeline and examples pass keywords the classes do not have and always end in TypeError; 19 listed uses of attributes name none of the members. The list of attribute uses is a selection; calls in graveyard are left out."
  },
  {
   "property": "C134",
   "status": "partial",
   "theorems": [
    "Verif.RadCorr.C134_restored_partial",
    "Verif.RadCorr.C134_restored_false",
    "Verif.RadCorr.C134_longer_false",
    "Verif.RadCorr.C134_fit",
    "Verif.RadCorr.C134_epoch",
    "Verif.RadCorr.C134_few",
    "Verif.RadCorr.C134_many_partial",
    "Verif.RadCorr.C134_linear",
    "Verif.RadCorr.C134_file_false",
    "Verif.RadCorr.C134_verbose_false",
    "Verif.RadCorr.C134_stored",
    "Verif.RadCorr.C134_tuple_false"
   ],
   "note": "Proved up to NMAX points, and for more points on the polygon through the thinned times. False: a failure under the fitted pole leaves it in the kernel pool; more than NMAX points are compared with the radii of the file instead of the recomputed ones; with verbose such profiles always fail; demo_e2e_event_loop stores the whole tuple, which cannot be written."
  },
  {
   "property": "C135",
   "status": "partial",
   "theorems": [
    "Verif.RadCorr.C135_coefficients",
    "Verif.RadCorr.C135_restored_partial",
    "Verif.RadCorr.C135_table_false",
    "Verif.RadCorr.C135_lengths",
    "Verif.RadCorr.C135_inside",
    "Verif.RadCorr.C135_linear",
    "Verif.RadCorr.C135_unlisted"
   ],
   "note": "Exact inside the profile up to NMAX points, and for linearly varying radii also when points are thinned out and at the ends. False: without the table of the fit the call fails and leaves the fitted pole in the kernel pool. Splitting a line of the table and converting its fifth word are taken as given."
  },
  {
   "property": "C136",
   "status": "partial",
   "theorems": [
    "Verif.Inv.C136_update",
    "Verif.Inv.C136_dlp",
    "Verif.Inv.C136_samples_partial",
    "Verif.Inv.C136_samples_false",
    "Verif.Inv.C136_again",
    "Verif.Inv.C136_wider",
    "Verif.Inv.C136_refused_false",
    "Verif.Inv.C136_accepted",
    "Verif.Inv.C136_ends",
    "Verif.Inv.C136_library_false",
    "Verif.Inv.C136_library",
    "Verif.Inv.C136_library_fits"
   ],
   "note": "The range is characterized completely. Every sample in it has room for its window only if the edges of the windows move with the samples; false without. False: the next check rounds outwards and refuses ranges that fit; the library's windows are wider by the normalized equivalent width, so accepted ranges may have no room for them. Exact arithmetic."
  },
  {
   "property": "C137",
   "status": "partial",
   "theorems": [
    "Verif.Vgr.C137_length",
    "Verif.Vgr.C137_samples",
    "Verif.Vgr.C137_ingress",
    "Verif.Vgr.C137_egress",
    "Verif.Vgr.C137_step",
    "Verif.Vgr.C137_aligned",
    "Verif.Vgr.C137_values",
    "Verif.Vgr.C137_constructed",
    "Verif.Vgr.C137_messages_false"
   ],
   "note": "Exact arithmetic for the times. False: a wrong direction or a missing file raises TypeError (the message adds the builtin dir to a string; the file name is incremented instead of the counter), sys.exit is not reached."
  },
  {
   "property": "C138",
   "status": "partial",
   "theorems": [
    "Verif.Uring.C138_time",
    "Verif.Uring.C138_calibration_partial",
    "Verif.Uring.C138_alpha_false",
    "Verif.Uring.C138_scatter",
    "Verif.Uring.C138_scatter_false",
    "Verif.Uring.C138_offsets",
    "Verif.Uring.C138_frame_false",
    "Verif.Uring.C138_frame_partial",
    "Verif.Uring.C138_room",
    "Verif.Uring.C138_columns",
    "Verif.Uring.C138_phase"
   ],
   "note": "The error of the times is given exactly. False: the calibration of the alpha ring on egress adds one second also before the missing second; the scattering script leaves the sample times of the rings beta, eta and gamma one second early; the epsilon ring is computed in the frame of the lambda ring, since the lists of rings and frames differ."
  },
  {
   "property": "C139",
   "status": "partial",
   "theorems": [
    "Verif.RsrHeader.C139_same_partial",
    "Verif.RsrHeader.C139_errors",
    "Verif.RsrHeader.C139_tail",
    "Verif.RsrHeader.C139_tail_false",
    "Verif.RsrHeader.C139_numpy_false"
   ],
   "note": "Proved for files of whole blocks up to 2^34 bytes; for others the number of times is compared with exact arithmetic. False: a file that ends within a block may give more times than samples; np.int is missing from NumPy 1.24 on, where every file raises AttributeError."
  },
  {
   "property": "C140",
   "status": "partial",
   "theorems": [
    "Verif.UGeo.C140_velocity_partial",
    "Verif.UGeo.C140_velocity_false",
    "Verif.UGeo.C140_monotone",
    "Verif.UGeo.C140_chord_partial",
    "Verif.UGeo.C140_symmetric_false",
    "Verif.UGeo.C140_last_false"
   ],
   "note": "Proved for times one second apart, for monotone radii, and for chords whose radius after the least one is greater than the one before. False: for every other distance d the velocity is d times the quotient; symmetric chords raise TypeError; chords with the least radius last but one raise ValueError."
  },
  {
   "property": "C141",
   "status": "partial",
   "theorems": [
    "Verif.UOut.C141_fresh_partial",
    "Verif.UOut.C141_order_false",
    "Verif.UOut.C141_prefix_false"
   ],
   "note": "Proved for listings with growing numbers and a number other than 0000. False: a listing that has n+1 before n replaces n+1; a file type that begins another one's name counts the other's files."
  },
  {
   "property": "C142",
   "status": "partial",
   "theorems": [
    "Verif.PyCall.C142_binds",
    "Verif.PyCall.C142_calls_partial",
    "Verif.PyCall.C142_calls_false"
   ],
   "note": "The binding is proved in general. 76 of the 86 calls succeed; ten are a TypeError for all values: the Uranus geometry, scattering and threshold calls, data_from_inst in the two demonstrations, and five calls with the unknown keyword res_factor."
  },
  {
   "property": "C143",
   "status": "partial",
   "theorems": [
    "Verif.Merge.C143_records",
    "Verif.Merge.C143_line_partial",
    "Verif.Merge.C143_other",
    "Verif.Merge.C143_time",
    "Verif.Merge.C143_size_false",
    "Verif.Merge.C143_midnight_false",
    "Verif.Merge.C143_order_false",
    "Verif.Merge.C143_elevation_false",
    "Verif.Merge.C143_short_false",
    "Verif.Merge.C143_cut_false"
   ],
   "note": "Proved for the lines that are changed (18 keywords) when the times grow within one day, the label of the last piece reaches to that line, the old value holds no keyword and the new line is no longer than the longest old one; other lines are proved unchanged. False: the elevation lines are never updated, rows lose their carriage return while RECORD_BYTES stays, times against the rows or after midnight, labels of different length, longer lines are cut."
  },
  {
   "property": "C144",
   "status": "partial",
   "theorems": [
    "Verif.Pick.C144_stations",
    "Verif.Pick.C144_first",
    "Verif.Pick.C144_sound",
    "Verif.Pick.C144_found_partial",
    "Verif.Pick.C144_egress_false",
    "Verif.Pick.C144_missing_false",
    "Verif.Pick.C144_several_false"
   ],
   "note": "Proved: a file that is returned is of the station, the day and the direction (or of the ingress of a chord), the first that fits is taken, and one is found for an ingress or a chord egress with one line in the table. False: an egress that is not a chord ends with ValueError when the first list has no file, an event missing in the table gives ValueError or UnboundLocalError instead of None, an event with two lines gives TypeError."
  },
  {
   "property": "C145",
   "status": "partial",
   "theorems": [
    "Verif.Pick.C145_kernel",
    "Verif.Pick.C145_none_false",
    "Verif.Pick.C145_shared_false",
    "Verif.Pick.C145_info",
    "Verif.Pick.C145_event",
    "Verif.Pick.C145_event_false",
    "Verif.Pick.C145_archive_false",
    "Verif.Pick.C145_load_partial",
    "Verif.Pick.C145_single_false",
    "Verif.Pick.C145_other_false"
   ],
   "note": "Proved: the kernel is the first that covers the day (also across the turn of a year), the information read from a TAU path is that of the path, the event name follows. False: without a kernel a path ending in NO KERNEL FOUND is returned; on a shared boundary day the earlier kernel is taken; with one matching line load_kernels_for_taufile takes its first character and raises ValueError; with several it may load the kernel of another event (Rev123 gets the kernel of 2005 day 123); the two forms of the station (43 and DSS-43) do not fit each other."
  },
  {
   "property": "C146",
   "status": "partial",
   "theorems": [
    "Verif.Typed.C146_typed",
    "Verif.Typed.C146_comma_false",
    "Verif.Typed.C146_accept",
    "Verif.Typed.C146_answer_false",
    "Verif.Typed.C146_new",
    "Verif.Typed.C146_invalid",
    "Verif.Typed.C146_invalid_later",
    "Verif.Typed.C146_default_later",
    "Verif.Typed.C146_default_partial",
    "Verif.Typed.C146_default_false"
   ],
   "note": "Proved: with two characters between the regions the values typed are read for every list of regions, the typed regions and order are returned, and the default is restored when the mask keeps it. False: with `],[` the last digit of the upper limit of every region but the last is dropped; every answer with an n in it (fine, continue) counts as no; the default list is shortened in place by the mask, so going back to the default does not give it back."
  },
  {
   "property": "C147",
   "status": "partial",
   "theorems": [
    "Verif.Fof.C147_band",
    "Verif.Fof.C147_limits",
    "Verif.Fof.C147_range_partial",
    "Verif.Fof.C147_day_false",
    "Verif.Fof.C147_few_false",
    "Verif.Fof.C147_near_false"
   ],
   "note": "Proved: the ratios of the bands, limits more than 100 s apart, and the exact range of ring samples on other days when there are three of them. False: on day 39 of 2008 the range is fixed at 64000-67000 s whatever was recorded; with fewer than three ring samples the whole recording is taken; limits 100 s apart or less, or reversed, are ignored without a message."
  },
  {
   "property": "C148",
   "status": "partial",
   "theorems": [
    "Verif.Fof.C148_dlp",
    "Verif.Fof.C148_told_partial",
    "Verif.Fof.C148_missing_false",
    "Verif.Fof.C148_bias_false",
    "Verif.Fof.C148_limits_false",
    "Verif.Fof.C148_order_false"
   ],
   "note": "Proved: the history of a profile tells all its arguments, those of the others all but one each. False: apply_bias_correction, local_path_to_tables, fof_lims and rev_info are not in the histories, although the samples (for every well-formed file with a real part other than -1) and the range of the fit depend on them; the order recorded is the one asked for, while order 1 is used with five or fewer regions."
  },
  {
   "property": "C149",
   "status": "partial",
   "theorems": [
    "Verif.Msg.C149_room",
    "Verif.Msg.C149_short",
    "Verif.Msg.C149_fits",
    "Verif.Msg.C149_attributes",
    "Verif.Msg.C149_free",
    "Verif.Msg.C149_leak_partial",
    "Verif.Msg.C149_leak_false",
    "Verif.Msg.C149_named_partial",
    "Verif.Msg.C149_named_false",
    "Verif.Msg.C149_sites"
   ],
   "note": "Proved: every composed message fits and is complete, and nothing is freed that was not allocated. False: the message of resize_half_window is allocated and never freed; in 16 files a message names another function. The second sprintf of crssringoccs_extract_data.c (line 89) takes a message of any length and belongs to C59."
  },
  {
   "property": "C150",
   "status": "partial",
   "theorems": [
    "Verif.Msg.C150_range",
    "Verif.Msg.C150_window",
    "Verif.Msg.C150_offered",
    "Verif.Msg.C150_accepted_partial",
    "Verif.Msg.C150_number",
    "Verif.Msg.C150_number_false"
   ],
   "note": "Proved: the regions with their limits and the windows are exactly those of the messages; every method offered is accepted, different names being different methods, and nothing else but fresnel with a number. False: the message asks for a number between 3 and 256, but fresnel2 and fresnel3 are accepted."
  },
  {
   "property": "C151",
   "status": "partial",
   "theorems": [
    "Verif.PyMod.C151_success",
    "Verif.PyMod.C151_names",
    "Verif.PyMod.C151_early_partial",
    "Verif.PyMod.C151_later_false",
    "Verif.PyMod.C151_static_false",
    "Verif.PyMod.C151_list_false",
    "Verif.PyMod.C151_added_false",
    "Verif.PyMod.C151_numpy_false"
   ],
   "note": "Proved: the successful import, and failures up to the first class. False: a failure for a later class (or for the list) releases the classes that the module already owns once too often; when the list cannot be made the module is released twice (use after free for all counts); when numpy cannot be imported the module stays."
  },
  {
   "property": "C152",
   "status": "partial",
   "theorems": [
    "Verif.Resln.C152_inverse",
    "Verif.Resln.C152_unreachable",
    "Verif.Resln.C152_resolution",
    "Verif.Resln.C152_near_partial",
    "Verif.Resln.C152_window_false",
    "Verif.Resln.C152_limits",
    "Verif.Resln.C152_band_false"
   ],
   "note": "Proved over the reals: existence and uniqueness of the inverse, the exact agreement for a window of effective width 1.65, the bounds res*1.65/normeq and res for every wider window, and the limits. False: for every window with an effective width above 1.65 the estimate is smaller than the resolution asked for, and the argument band of b_MTR33 is ignored."
  },
  {
   "property": "C154",
   "status": "partial",
   "theorems": [
    "Verif.Dtau.C154_colour",
    "Verif.Dtau.C154_legend_partial",
    "Verif.Dtau.C154_legend_false",
    "Verif.Dtau.C154_again_false",
    "Verif.Dtau.C154_slopes",
    "Verif.Dtau.C154_markers"
   ],
   "note": "Proved: colours, slopes, markers, and the legend for two or more different radii. False: with one greatest radius the first label is compared with itself (labels[-1]) and the legend is empty."
  },
  {
   "property": "C153",
   "status": "proved",
   "theorems": [
    "Verif.Dtau.C153_shape",
    "Verif.Dtau.C153_value",
    "Verif.Dtau.C153_line",
    "Verif.Dtau.C153_write",
    "Verif.Dtau.C153_equal"
   ],
   "note": "Proved for every ordered field and every rule of integration with weights that depend on the nodes."
  },
  {
   "property": "C155",
   "status": "proved",
   "theorems": [
    "Verif.Fwd.C155_ringlet",
    "Verif.Fwd.C155_gap",
    "Verif.Fwd.C155_possible",
    "Verif.Fwd.C155_impulse"
   ],
   "note": "Proved."
  },
  {
   "property": "C156",
   "status": "proved",
   "theorems": [
    "Verif.Fwd.C156_lines",
    "Verif.Fwd.C156_chord"
   ],
   "note": "Proved for the five columns that are turned round; for the others see C158."
  },
  {
   "property": "C157",
   "status": "partial",
   "theorems": [
    "Verif.Fwd.C157_right_partial",
    "Verif.Fwd.C157_right_false",
    "Verif.Fwd.C157_left_partial",
    "Verif.Fwd.C157_left_false",
    "Verif.Fwd.C157_square_partial",
    "Verif.Fwd.C157_square_false",
    "Verif.Fwd.C157_phase_false"
   ],
   "note": "Proved: every sample but the last (right edge), every sample but the last left of the edge (left edge), the whole waves when the first radius is in the free half. False in every model: the last sample of a right edge is opaque ([rstart:-1]), the last sample left of a left edge is opaque ([0:rfinsh]), the wave after the last whole one is missing, and a first radius in the opaque half displaces the wave."
  },
  {
   "property": "C158",
   "status": "partial",
   "theorems": [
    "Verif.Fwd.C158_times_partial",
    "Verif.Fwd.C158_times_false",
    "Verif.Fwd.C158_given_partial",
    "Verif.Fwd.C158_given_false",
    "Verif.Fwd.C158_info_false",
    "Verif.Fwd.C158_names_false",
    "Verif.Fwd.C158_search"
   ],
   "note": "Proved: the times stay when the radii do not fall; the used part lies within the range; the search for a resolution ends only without windows. False: falling radii are turned round without the times (the first radius gets the last time); the last given sample in the range is never used; the pattern '\"%s%\"' makes every event Unknown; CSV_tools and rss are not defined."
  },
  {
   "property": "C159",
   "status": "partial",
   "theorems": [
    "Verif.Dtau.C159_reach_partial",
    "Verif.Dtau.C159_reach_false",
    "Verif.Dtau.C159_name_partial",
    "Verif.Dtau.C159_name_false",
    "Verif.Dtau.C159_clash_false",
    "Verif.Dtau.C159_leading_false"
   ],
   "note": "The nodes reach every range when both lists are in rising order (false otherwise). The name is the documented one when both parts have three digits; false for solid ice, the documented example (m178i0.csv for m178i000.csv), and for every imaginary part below one; 0.10 and 1.00 clash."
  },
  {
   "property": "C160",
   "status": "partial",
   "theorems": [
    "Verif.Loop.C160_first_partial",
    "Verif.Loop.C160_second_false",
    "Verif.Loop.C160_sticky_false",
    "Verif.Loop.C160_warned_partial",
    "Verif.Loop.C160_warned_false"
   ],
   "note": "Proved for the first directory of each station when each has the resolution asked for. False: `string`, which holds the station, is overwritten with the name of the file, so no second directory of a station is processed; once one directory lacks the resolution, all later stations are processed with any; the warning tests the beginning of the range twice, so a range that ends outside the file is never told."
  },
  {
   "property": "C161",
   "status": "proved",
   "theorems": [
    "Verif.Loop.C161_until_failure",
    "Verif.Loop.C161_done"
   ],
   "note": "The result is the longest initial part of the undisturbed result all of whose pieces succeed."
  },
  {
   "property": "C162",
   "status": "proved",
   "theorems": [
    "Verif.Loop.C162_block",
    "Verif.Loop.C162_missing"
   ],
   "note": "Both directions, for all labels."
  },
  {
   "property": "C163",
   "status": "partial",
   "theorems": [
    "Verif.Loop.C163_arguments_partial",
    "Verif.Loop.C163_rest_false",
    "Verif.Loop.C163_shared_false"
   ],
   "note": "Proved for the arguments, and for all parts with a terminal. False: without a terminal the date, user and information stay those of the DLP file; the dictionary is shared, so the history of the DLP object is overwritten."
  },
  {
   "property": "C164",
   "status": "proved",
   "theorems": [
    "Verif.Web.C164_paths",
    "Verif.Web.C164_kept",
    "Verif.Web.C164_others",
    "Verif.Web.C164_fetched"
   ],
   "note": "For all lists, with repetitions."
  },
  {
   "property": "C165",
   "status": "partial",
   "theorems": [
    "Verif.Web.C165_content_partial",
    "Verif.Web.C165_missing_false",
    "Verif.Web.C165_page_false"
   ],
   "note": "Proved when each file is there with that content or is sent. False: the path is returned when nothing was fetched; curl has no -f, so an error page is stored as the file and, without force, stays for all later calls."
  },
  {
   "property": "C166",
   "status": "partial",
   "theorems": [
    "Verif.Web.C166_none",
    "Verif.Web.C166_comma",
    "Verif.Web.C166_middle_partial",
    "Verif.Web.C166_last_false",
    "Verif.Web.C166_first_false",
    "Verif.Web.C166_written"
   ],
   "note": "Proved for a keyword in the middle (the order set_tau_history writes), against the lines the writer makes. False for the last (the brace is part of the type) and the first (the name of the section is part of it)."
  },
  {
   "property": "C167",
   "status": "partial",
   "theorems": [
    "Verif.Web.C167_range_partial",
    "Verif.Web.C167_both_partial",
    "Verif.Web.C167_copy",
    "Verif.Web.C167_removed_false"
   ],
   "note": "Proved: the name and the copy. False: rm is called with the argument `-f ` (with a space), an unknown option, so the old file always stays."
  },
  {
   "property": "C168",
   "status": "partial",
   "theorems": [
    "Verif.Web.C168_all_partial",
    "Verif.Web.C168_once",
    "Verif.Web.C168_third_false"
   ],
   "note": "Proved for up to two indices and two radii; never twice. False: the lists are zipped with lists of two markers and two colours, so a third index or radius has no curve."
  },
  {
   "property": "C169",
   "status": "proved",
   "theorems": [
    "Verif.Jobs.C169_line",
    "Verif.Jobs.C169_left",
    "Verif.Jobs.C169_kept",
    "Verif.Jobs.C169_template",
    "Verif.Jobs.C169_programs"
   ],
   "note": "Twenty-two replacements in sequence equal one replacement of all keywords at once; checked for the twenty lines of the template that have keywords. Names of programs are distinct beyond 9999 jobs as well."
  },
  {
   "property": "C170",
   "status": "partial",
   "theorems": [
    "Verif.Jobs.C170_all_partial",
    "Verif.Jobs.C170_once",
    "Verif.Jobs.C170_single_false"
   ],
   "note": "Proved when no Rev has exactly one file. False for a Rev with a single file: get_CORSS_8001_TABfiles then returns the path itself, the driver goes through its characters, and the index 13 of a one-letter name is an IndexError."
  },
  {
   "property": "C171",
   "status": "partial",
   "theorems": [
    "Verif.Jobs.C171_glob",
    "Verif.Jobs.C171_standard_partial",
    "Verif.Jobs.C171_ending_false"
   ],
   "note": "Proved for the seven standard resolutions, for all events and dates. False for others: `DLP_*50M_` also matches 0250M, 0150M and so on."
  },
  {
   "property": "C172",
   "status": "partial",
   "theorems": [
    "Verif.Jobs.C172_one_partial",
    "Verif.Jobs.C172_missing",
    "Verif.Jobs.C172_two_false"
   ],
   "note": "Proved for at most one directory of the station and direction. False for two: `is_processing_range_valid = is_processing_range_valid_from_GEO_DLP_files(...)` replaces the function by its answer, which the second check calls."
  },
  {
   "property": "C173",
   "status": "partial",
   "theorems": [
    "Verif.Jobs.C173_same",
    "Verif.Jobs.C173_version_partial",
    "Verif.Jobs.C173_day_partial",
    "Verif.Jobs.C173_first_false",
    "Verif.Jobs.C173_ten_false",
    "Verif.Jobs.C173_twelve_false"
   ],
   "note": "Proved for the same date and version, for versions 2 to 9, and for version 1 within a month. False on the first of a month (day 00 is looked for), for version 10 (`000-1.TA`, cut to the width of the array) and for versions above (12 gives 1)."
  },
  {
   "property": "C174",
   "status": "proved",
   "theorems": [
    "Verif.Runs.C174_all",
    "Verif.Runs.C174_interrupted",
    "Verif.Runs.C174_skipped",
    "Verif.Runs.C174_comments"
   ],
   "note": "Numbers are those in the list without the commented lines."
  },
  {
   "property": "C175",
   "status": "partial",
   "theorems": [
    "Verif.Runs.C175_fine_partial",
    "Verif.Runs.C175_first",
    "Verif.Runs.C175_failure_false"
   ],
   "note": "Proved when nothing fails. False otherwise: the handler adds the builtin function dir to a text, which raises in the handler; the batch ends at the first failure (C175_first) without a report."
  },
  {
   "property": "C176",
   "status": "partial",
   "theorems": [
    "Verif.Runs.C176_last",
    "Verif.Runs.C176_kept_partial",
    "Verif.Runs.C176_second_false"
   ],
   "note": "Proved for failures in different seconds. False within one second: the name has no number of the task, and the later report replaces the earlier one. C176_last tells exactly which reports are left."
  },
  {
   "property": "C177",
   "status": "proved",
   "theorems": [
    "Verif.Runs.C177_whole",
    "Verif.Runs.C177_order",
    "Verif.Runs.C177_mixed"
   ],
   "note": "An append between open and close is taken to be whole. C177_mixed: the entries of two tasks can alternate, so an entry does not belong to the GEO and CAL entries before it."
  },
  {
   "property": "C178",
   "status": "partial",
   "theorems": [
    "Verif.Runs.C178_until_partial",
    "Verif.Runs.C178_reached_partial",
    "Verif.Runs.C178_none",
    "Verif.Runs.C178_chord_false"
   ],
   "note": "Proved for descending spacings when ingress and egress reach the same. False for a chord whose egress is sampled more coarsely than its ingress: the spacing of the egress alone decides about going on."
  },
  {
   "property": "C179",
   "status": "partial",
   "theorems": [
    "Verif.Runs.C179_rows",
    "Verif.Runs.C179_all_partial",
    "Verif.Runs.C179_gap_false"
   ],
   "note": "Proved when no task fails. False otherwise: a table with a gap is merged as if it were complete (C179_rows tells its rows)."
  },
  {
   "property": "C180",
   "status": "partial",
   "theorems": [
    "Verif.Runs.C180_cleared_partial",
    "Verif.Runs.C180_stale_false"
   ],
   "note": "Proved when the directory old/ exists. False without: mv fails, the handler prints that no stale files were found, and their rows are merged."
  },
  {
   "property": "C181",
   "status": "partial",
   "theorems": [
    "Verif.Runs.C181_before_partial",
    "Verif.Runs.C181_versions_false"
   ],
   "note": "Proved when all tasks look before the first writes. False otherwise: a task that comes later takes the next version, and the merged table is named after whichever piece the directory lists first."
  },
  {
   "property": "C182",
   "status": "proved",
   "theorems": [
    "Verif.Lay.C182_set",
    "Verif.Lay.C182_bytes",
    "Verif.Lay.C182_places",
    "Verif.Lay.C182_released"
   ],
   "note": "Layout rule of 64-bit machines; the size of tmpl_Bool is a parameter, because libtmpl is not in the repository."
  },
  {
   "property": "C183",
   "status": "partial",
   "theorems": [
    "Verif.Lay.C183_four_partial",
    "Verif.Lay.C183_one_partial",
    "Verif.Lay.C183_flags_false"
   ],
   "note": "Proved if tmpl_Bool has the size of a C int. False if it has one byte: the letter p of PyArg_ParseTupleAndKeywords stores a C int, which clears the flags after the given one; C183_one_partial tells exactly what is left."
  },
  {
   "property": "C184",
   "status": "partial",
   "theorems": [
    "Verif.Lay.C184_csv_partial",
    "Verif.Lay.C184_missing_partial",
    "Verif.Lay.C184_all_false"
   ],
   "note": "Proved for the object of files. False for reconstructions: k_vals, wtype and psitype have no entry in the table (exactly these three, C184_missing_partial)."
  },
  {
   "property": "C185",
   "status": "partial",
   "theorems": [
    "Verif.HText.C185_refs_partial",
    "Verif.HText.C185_keyword_none",
    "Verif.HText.C185_keyword_false",
    "Verif.HText.C185_deep_false"
   ],
   "note": "Proved for trees that are at most two deep along positional arguments (C185_refs_partial). False otherwise: a history among keyword arguments ends in a KeyError, because it is stored among the keyword arguments and looked up among the positional ones; the third level is referred to but not shown."
  },
  {
   "property": "C186",
   "status": "partial",
   "theorems": [
    "Verif.HText.C186_right_partial",
    "Verif.HText.C186_keyword_object",
    "Verif.HText.C186_right_false"
   ],
   "note": "Proved if histories of the same name are the same. False otherwise: names are the only key, so that the calibration's reader is shown as the profile's reader."
  },
  {
   "property": "C187",
   "status": "partial",
   "theorems": [
    "Verif.HText.C187_kept_partial",
    "Verif.HText.C187_kept_false"
   ],
   "note": "Proved if every history in an argument has the name of an argument, which holds for calibrations and diffraction-limited profiles. False otherwise: nested histories are put into the object's own dictionary of positional arguments and shown as its arguments."
  },
  {
   "property": "C188",
   "status": "proved",
   "theorems": [
    "Verif.Sys.C188_bits",
    "Verif.Sys.C188_twice"
   ],
   "note": "Reading and setting the mode are one step."
  },
  {
   "property": "C189",
   "status": "partial",
   "theorems": [
    "Verif.Sys.C189_words_partial",
    "Verif.Sys.C189_words_false"
   ],
   "note": "Proved for elements that are not empty and have only characters without meaning for the shell. False otherwise: an element with a blank becomes two words, an empty one is lost."
  },
  {
   "property": "C190",
   "status": "proved",
   "theorems": [
    "Verif.Sys.C190_order",
    "Verif.Sys.C190_distinct"
   ],
   "note": "The time is what the clock shows, in local time."
  },
  {
   "property": "C191",
   "status": "partial",
   "theorems": [
    "Verif.Sys.C191_fresh_partial",
    "Verif.Sys.C191_order_false",
    "Verif.Sys.C191_correction_false"
   ],
   "note": "Proved for geometries if the files are listed with growing numbers. False if not: the file of the number after the last listed one is replaced. False for every reconstruction: `rss.diffrec` does not exist, so that the test of the type ends in an AttributeError."
  },
  {
   "property": "C192",
   "status": "partial",
   "theorems": [
    "Verif.Sys.C192_name_partial",
    "Verif.Sys.C192_type_false",
    "Verif.Sys.C192_directory_false"
   ],
   "note": "Proved with the range if `M_` and the ending occur once in the path. False without the range: the name is not set (UnboundLocalError). False if a directory has `M_` in its name: the range is put there too."
  },
  {
   "property": "C193",
   "status": "partial",
   "theorems": [
    "Verif.Names.C193_names_partial",
    "Verif.Names.C193_functions",
    "Verif.Names.C193_names_false"
   ],
   "note": "361 of the 376 functions read only bound names. False for 35 reads in 15 functions."
  },
  {
   "property": "C194",
   "status": "partial",
   "theorems": [
    "Verif.PyImp.C194_package",
    "Verif.PyImp.C194_modules_partial",
    "Verif.PyImp.C194_modules_false",
    "Verif.PyImp.C194_more_false"
   ],
   "note": "True for the package and for 40 of its 44 modules. `compare` can never be imported, and three modules need what is not among the requirements."
  },
  {
   "property": "C195",
   "status": "partial",
   "theorems": [
    "Verif.PyImp.C195_reads_partial",
    "Verif.PyImp.C195_reads_false"
   ],
   "note": "False for five attributes."
  },
  {
   "property": "C196",
   "status": "proved",
   "theorems": [
    "Verif.E2e.C196_newest"
   ],
   "note": "Names, attributes and keywords; the computations themselves are taken to succeed."
  },
  {
   "property": "C197",
   "status": "partial",
   "theorems": [
    "Verif.E2e.C197_older_partial",
    "Verif.E2e.C197_older_false"
   ],
   "note": "Only `e2e_batch_1km.py` without files does it. With files all six fail with every recording that has a profile."
  },
  {
   "property": "C198",
   "status": "proved",
   "theorems": [
    "Verif.Orb.C198_equations",
    "Verif.Orb.geoCyl_state"
   ],
   "note": "Real numbers. The equations only; for `geo_posi` as a whole see C199."
  },
  {
   "property": "C199",
   "status": "partial",
   "theorems": [
    "Verif.Orb.C199_vector_partial",
    "Verif.Orb.C199_vector_false"
   ],
   "note": "False: it never returns (`np.dpi`, a nested list, `cos`), and its slice would drop the vertical velocity. Proved: with these three repaired the result would be all but the last number."
  },
  {
   "property": "C200",
   "status": "proved",
   "theorems": [
    "Verif.FromInst.C200_taken"
   ],
   "note": "Real numbers, with one value for what is not a finite number. The corrections are made as the threshold times 0, so they are not a number where the threshold is not; the theorem excludes that."
  },
  {
   "property": "C201",
   "status": "proved",
   "theorems": [
    "Verif.Summary.C201_pages"
   ],
   "note": "Exact numbers."
  },
  {
   "property": "C202",
   "status": "partial",
   "theorems": [
    "Verif.Summary.C202_figures_partial",
    "Verif.Summary.C202_figures_false"
   ],
   "note": "False: the seventh figure takes page 7, which the eighth takes again, with the caption of the overview. Proved: all other figures are the pages in order with the right caption."
  },
  {
   "property": "C203",
   "status": "partial",
   "theorems": [
    "Verif.Summary.C203_phase_partial",
    "Verif.Summary.C203_phase_false",
    "Verif.Summary.C203_order_false"
   ],
   "note": "False: the page of the phases shows 72000 to 144000 km only, and a profile with descending radii is shown at its beginning only. Proved: all radii within these limits are shown."
  },
  {
   "property": "C204",
   "status": "proved",
   "theorems": [
    "Verif.Sky.C204_view",
    "Verif.Sky.C204_orientation"
   ],
   "note": "Real numbers; the matrices of SPICE by their definition."
  },
  {
   "property": "C205",
   "status": "partial",
   "theorems": [
    "Verif.Sky.C205_track_partial",
    "Verif.Sky.C205_track_false"
   ],
   "note": "False: the horizontal coordinate has a factor cos B too many, so each point is drawn inside the ring of its radius, unless it lies at 90 or 270 degrees from the ascending direction. Proved: those points, and rings seen from their plane."
  },
  {
   "property": "C206",
   "status": "partial",
   "theorems": [
    "Verif.Sky.C206_blocked_partial",
    "Verif.Sky.C206_blocked_false"
   ],
   "note": "False: the times are those of the same index in all points, so if points beyond 150000 km come first the wrong points are dashed. Proved: if the points that are left out come last."
  },
  {
   "property": "C207",
   "status": "partial",
   "theorems": [
    "Verif.Sky.C207_lines_partial",
    "Verif.Sky.C207_lines_false"
   ],
   "note": "False: the projected polar radius is used for the polar radius, so visible points are drawn outside the outline (example with the radii of Saturn at 28 degrees). Proved: inside the outline of the spheroid with that radius, hence inside the outline for a sphere or a planet seen from its equator."
  },
  {
   "property": "C208",
   "status": "proved",
   "theorems": [
    "Verif.Uring.C208_points"
   ],
   "note": "Exact numbers."
  },
  {
   "property": "C209",
   "status": "proved",
   "theorems": [
    "Verif.Elev.C209_elevation"
   ],
   "note": "Real numbers, any inner product space; `spice.vsep` by its documented formula, which is proved to be the angle."
  },
  {
   "property": "C210",
   "status": "partial",
   "theorems": [
    "Verif.Elev.C210_horizon_partial",
    "Verif.Elev.C210_horizon_false"
   ],
   "note": "False: the line from the centre of the Earth is taken for the vertical, so a target in the zenith gets less than 90 degrees wherever the two differ. Proved: where they agree."
  },
  {
   "property": "C211",
   "status": "partial",
   "theorems": [
    "Verif.Uring.C211_rings_partial",
    "Verif.Uring.C211_rings_false"
   ],
   "note": "False: a ring whose centre is outside the profile is skipped, though its surroundings reach into it. Proved: if each ring that comes near the profile has its centre inside."
  },
  {
   "property": "C212",
   "status": "proved",
   "theorems": [
    "Verif.Spc.C212_read"
   ],
   "note": "Exact numbers; `str` and `float` are parameters with the properties that Python gives. A free power of 0 gives 0 instead of infinity."
  },
  {
   "property": "C213",
   "status": "partial",
   "theorems": [
    "Verif.Spc.C213_axes_partial",
    "Verif.Spc.C213_axes_false"
   ],
   "note": "False: the step in the header is the range divided by the number of values, not of steps, so each value but the first comes back wrong. Proved: how much each is off."
  },
  {
   "property": "C214",
   "status": "proved",
   "theorems": [
    "Verif.Pick.C214_value",
    "Verif.Pick.C214_none",
    "Verif.Pick.C214_event"
   ],
   "note": "`float` is a parameter."
  },
  {
   "property": "C215",
   "status": "partial",
   "theorems": [
    "Verif.Pick.C215_rate_partial",
    "Verif.Pick.C215_rate_false"
   ],
   "note": "False: the argument `_16kHz` is not used, the ratio is always that of the file of 16 kHz. Proved: when both rates have the same file."
  },
  {
   "property": "C216",
   "status": "proved",
   "theorems": [
    "Verif.Pick.C216_kernels"
   ],
   "note": "Whether the web gives the file does not matter, because exceptions are caught."
  },
  {
   "property": "C217",
   "status": "partial",
   "theorems": [
    "Verif.Pick.C217_all_partial",
    "Verif.Pick.C217_all_false"
   ],
   "note": "False: only the first kernel of a line is asked for, and of each name 29 characters. Proved: what is asked for stands in the line after `$A/`."
  },
  {
   "property": "C218",
   "status": "proved",
   "theorems": [
    "Verif.Cal.C218_power",
    "Verif.Cal.C218_constant",
    "Verif.Cal.C218_reach"
   ],
   "note": "Real and complex numbers; Simpson's rule is a parameter that is exact for constants. The constant has the opposite sign because half a turn is subtracted."
  },
  {
   "property": "C219",
   "status": "partial",
   "theorems": [
    "Verif.Cal.C219_end_partial",
    "Verif.Cal.C219_end_false"
   ],
   "note": "False: the grid ends one step before the last time and the phase is held from there on. Proved: what remains after the end of the grid."
  },
  {
   "property": "C220",
   "status": "proved",
   "theorems": [
    "Verif.Geo.C220_state",
    "Verif.Geo.C220_impact"
   ],
   "note": "A frame is a rotation of J2000; the pole is given in the frame."
  },
  {
   "property": "C221",
   "status": "partial",
   "theorems": [
    "Verif.Geo.C221_axis_partial",
    "Verif.Geo.C221_axis_false"
   ],
   "note": "False for frames other than J2000: `ref` is not passed on to `xform_j2k_to_pcf`, which takes the line of sight in J2000. Proved for J2000."
  },
  {
   "property": "C222",
   "status": "proved",
   "theorems": [
    "Verif.Sky.C222_track",
    "Verif.Sky.C222_earth"
   ],
   "note": "Real arithmetic. Points exactly at the equator are in neither line."
  },
  {
   "property": "C223",
   "status": "partial",
   "theorems": [
    "Verif.Sky.C223_markers_partial",
    "Verif.Sky.C223_markers_false"
   ],
   "note": "False: every 1800th of the points that were left is marked, so a track interrupted by the planet or by the limit of 150000 km has markers at other times. Proved for tracks of which no point is left out."
  },
  {
   "property": "C224",
   "status": "proved",
   "theorems": [
    "Verif.DOp.C224_bins",
    "Verif.DOp.C224_once"
   ],
   "note": "Exact arithmetic; NaN is `none`."
  },
  {
   "property": "C225",
   "status": "partial",
   "theorems": [
    "Verif.DOp.C225_aligned_partial",
    "Verif.DOp.C225_difference_partial",
    "Verif.DOp.C225_aligned_false"
   ],
   "note": "False: a bin without a number is stored as NaN (`taui != np.nan` is always true) and `find_first_nan_index` takes it for the end of the row, so the next file is written over the rest of the one before. Proved when every bin has a number."
  },
  {
   "property": "C226",
   "status": "partial",
   "theorems": [
    "Verif.DOp.C226_covered_partial",
    "Verif.DOp.C226_covered_false"
   ],
   "note": "False: the ends of the bins belong to none of them, and the last half bin is left out when the feature is a multiple of the bin size (the inner A ring with the default of 40 km). Proved for the other radii."
  },
  {
   "property": "C227",
   "status": "proved",
   "theorems": [
    "Verif.Cmp.C227_turn",
    "Verif.Cmp.C227_adjusted"
   ],
   "note": "Exact arithmetic, no NaN."
  },
  {
   "property": "C228",
   "status": "partial",
   "theorems": [
    "Verif.Cmp.C228_offset_partial",
    "Verif.Cmp.C228_offset_false"
   ],
   "note": "False: values from a file have `y_offset` added twice. Proved for results that do not come from a file, and without `y_offset`."
  },
  {
   "property": "C229",
   "status": "partial",
   "theorems": [
    "Verif.Cmp.C229_inside_partial",
    "Verif.Cmp.C229_inside_false"
   ],
   "note": "False: the limits are computed after the loop, from the values of the last result. Proved for one result (optical depths not below -0.05)."
  },
  {
   "property": "C230",
   "status": "proved",
   "theorems": [
    "Verif.Tex.C230_macros",
    "Verif.Tex.C230_directory"
   ],
   "note": "Numbers of revolutions have 3 digits, stations 2."
  },
  {
   "property": "C231",
   "status": "partial",
   "theorems": [
    "Verif.Tex.C231_title_partial",
    "Verif.Tex.C231_title_false"
   ],
   "note": "False for chords and occultations behind the planet: the letters `C` and `P` of the revolution's name go into the name of the profile. Proved for the others."
  },
  {
   "property": "C232",
   "status": "proved",
   "theorems": [
    "Verif.CalPage.C232_sky",
    "Verif.CalPage.C232_offset",
    "Verif.CalPage.C232_power"
   ],
   "note": "Exact arithmetic."
  },
  {
   "property": "C233",
   "status": "partial",
   "theorems": [
    "Verif.CalPage.C233_power_partial",
    "Verif.CalPage.C233_power_false"
   ],
   "note": "False for every power except 0: it is multiplied by 2e-9 instead of divided by 2e9, so all values are 4 times too large. Proved for ratios of powers."
  },
  {
   "property": "C234",
   "status": "partial",
   "theorems": [
    "Verif.CalPage.C234_window_partial",
    "Verif.CalPage.C234_window_false"
   ],
   "note": "False for 5 points: the width becomes 3, not larger than the degree of the polynomials. Proved from 6 points on."
  },
  {
   "property": "C235",
   "status": "partial",
   "theorems": [
    "Verif.Titan.C235_kernels_partial",
    "Verif.Titan.C235_fresh_partial",
    "Verif.Titan.C235_kernels_false"
   ],
   "note": "False: the constants are read before the first attempt, so without their file there is an exception and the last resort, to load it, is never reached. Proved when the constants are loaded (and then no kernel is loaded without need), and when no kernels are loaded or used."
  },
  {
   "property": "C236",
   "status": "proved",
   "theorems": [
    "Verif.Titan.C236_range",
    "Verif.Titan.C236_position"
   ],
   "note": "Real arithmetic; the elements of the orbit are given."
  },
  {
   "property": "C237",
   "status": "proved",
   "theorems": [
    "Verif.PdsThr.C237_scale",
    "Verif.PdsThr.C237_ratio",
    "Verif.PdsThr.C237_resolution"
   ],
   "note": "Real arithmetic without NaN; radial velocities are given, and the interpolation to the radii of the TAU file is left out."
  },
  {
   "property": "C238",
   "status": "partial",
   "theorems": [
    "Verif.PdsThr.C238_elevation_partial",
    "Verif.PdsThr.C238_elevation_false"
   ],
   "note": "False: the elevation of the first row is used for all rows. Proved when the elevation is the same in all rows."
  },
  {
   "property": "C239",
   "status": "partial",
   "theorems": [
    "Verif.Chord.C239_index",
    "Verif.Chord.C239_start_partial",
    "Verif.Chord.C239_start_false",
    "Verif.Chord.C239_outwards_false"
   ],
   "note": "That it is at a sample is proved. False otherwise: only one of the two bounds is looked at, by the direction of the first step, so that a chord that begins inwards below 70000 km (or outwards above 150000 km) has its circle outside the rings. Proved for chords that stay within the bound that is not looked at."
  }
 ]
}