{"id": "C01", "title": "Errors are sticky across the whole tau API", "statement": "Once a tau object carries error_occurred, every later call of the public tau functions (the checks, Set_Window_Type, Set_Psi_Type, Set_Range_From_String, Get_Window_Width, Diffraction_Correction and Reconstruction, Finish) returns without undefined behaviour and leaves the object - all arrays, all scalars, and the first error message - exactly as it was; so the message a user reads is always the first failure of the sequence.", "quantifier": "every tau object whose error flag is set (any contents, including NULL arrays and nonsensical sizes), every sequence of public calls of any length", "why_tests_cant": "The set of call sequences and of corrupted objects is infinite; a test samples a handful of orders and can never show that a later stage never overwrites an earlier message or touches memory of a failed object.", "anchors": ["src/tau/rss_ringoccs_tau_check_keywords.c: rssringoccs_Tau_Check_Keywords", "src/tau/rss_ringoccs_tau_check_occ_type.c: rssringoccs_Tau_Check_Occ_Type", "src/tau/rss_ringoccs_tau_get_window_width.c: rssringoccs_Tau_Get_Window_Width", "src/reconstruction/rss_ringoccs_reconstruction.c: rssringoccs_Reconstruction", "src/tau/rss_ringoccs_tau_finish.c: rssringoccs_Tau_Finish"]}
{"id": "C02", "title": "NULL tau is a harmless no-op", "statement": "Every public function that takes a tau pointer may be called with NULL: it returns without touching memory. ", "quantifier": "every public tau function, NULL argument", "why_tests_cant": "A unit test can call the functions somebody remembered to test; the claim is about every entry point, including those reached only through the dispatcher (SimpleFFT dereferences NULL).", "anchors": ["src/reconstruction/rss_ringoccs_diffraction_correction_simple_fft.c: rssringoccs_Diffraction_Correction_SimpleFFT", "src/reconstruction/rss_ringoccs_diffraction_correction.c: rssringoccs_Diffraction_Correction", "src/tau/rss_ringoccs_tau_destroy.c: rssringoccs_Tau_Destroy"]}
{"id": "C03", "title": "Creating a tau object copies the DLP faithfully and only fails for the stated reasons", "statement": "rssringoccs_Tau_Create_From_DLP on a well-formed DLP (all arrays present, of length arr_size) never has undefined behaviour; if the result carries no error then arr_size equals that of the DLP, the fourteen geometry/time arrays are equal element by element to the DLP's, T_in[n] is the complex number with modulus sqrt(p_norm[n]) and phase minus phase_deg[n], k and F are computed from the same row n, dx_km is rho[1]-rho[0], the DLP itself is untouched, and w, T_out and T_fwd are NULL.", "quantifier": "every DLP of every length, every value of every element (including NaN and infinities), every resolution, every outcome of malloc", "why_tests_cant": "Row mix-ups, dropped arrays and partially filled objects after a failing malloc only show for particular columns and allocation failures; a test cannot enumerate contents, lengths and malloc outcomes.", "anchors": ["src/tau/rss_ringoccs_tau_create_from_dlp.c: rssringoccs_Tau_Create_From_DLP", "src/tau/rss_ringoccs_tau_copy_dlp_data.c", "src/tau/rss_ringoccs_tau_malloc_members.c", "src/tau/rss_ringoccs_tau_copy_dlp_members.c", "src/tau/rss_ringoccs_tau_compute_data_from_dlp_members.c"]}
{"id": "C04", "title": "Geometry validation accepts exactly the legal geometries", "statement": "For a tau object whose arrays contain no NaN, Check_Geometry leaves the object error-free if and only if all azimuths are finite and in [-360,360], all opening angles are in [-360,360], all ring distances and radii are positive, and dx_km is finite, non-zero and at most resolution/1.99 in magnitude; and Create_From_DLP never hands out an error-free object violating this.", "quantifier": "all array lengths and contents, all scalar values", "why_tests_cant": "The accept/reject boundary is a property of a whole multidimensional real region; tests check isolated points and never the absence of a wrongly accepted array somewhere in the middle.", "anchors": ["src/tau/rss_ringoccs_tau_check_geometry.c", "src/tau/rss_ringoccs_tau_check_azimuth_angle.c", "src/tau/rss_ringoccs_tau_check_displacement.c", "src/tau/rss_ringoccs_tau_check_opening_angle.c", "src/tau/rss_ringoccs_tau_check_ring_distance.c", "src/tau/rss_ringoccs_tau_check_ring_radius.c"]}
{"id": "C05", "title": "Keyword validation accepts exactly the legal parameters and reports the first offence", "statement": "Check_Keywords leaves an error-free tau error-free if and only if sigma and resolution are finite and positive, eccentricity is finite and non-negative, periapse is finite and within [-2pi,2pi], and range is finite with 0 <= range[0] <= range[1]; otherwise the reported message belongs to the first offending parameter in the order sigma, resolution, eccentricity, periapse, range; NaN in any of these is always rejected. No other field changes.", "quantifier": "all doubles including NaN and infinities for all six parameters simultaneously", "why_tests_cant": "NaN makes every comparison false, so a check written as (x < 0) silently accepts it; only a proof over all values of all parameters at once excludes a hole.", "anchors": ["src/tau/rss_ringoccs_tau_check_keywords.c", "src/tau/rss_ringoccs_tau_check_allan_deviation.c", "src/tau/rss_ringoccs_tau_check_resolution.c", "src/tau/rss_ringoccs_tau_check_eccentricity.c", "src/tau/rss_ringoccs_tau_check_periapse.c", "src/tau/rss_ringoccs_tau_check_range.c"]}
{"id": "C06", "title": "A tau object with default settings processes the whole data set", "statement": "The defaults are documented as range \"all\" (1 to 400000 km, later clipped to the data). Therefore a tau object freshly created from a good DLP, with no setter called, must not be rejected by Reconstruction because of its radial range.", "quantifier": "every DLP accepted by Create_From_DLP, every resolution", "why_tests_cant": "The defect, if any, is that a default is stored in a field nobody reads; it cannot be shown absent by any finite set of data files.", "anchors": ["src/tau/rss_ringoccs_tau_set_default_values.c: rssringoccs_Tau_Set_Default_Values", "src/tau/rss_ringoccs_tau_get_window_width.c", "src/reconstruction/rss_ringoccs_reconstruction.c"]}
{"id": "C07", "title": "Occultation-type check: accepted data come out as an egress-ordered profile", "statement": "If Check_Occ_Type leaves a tau error-free then dx_km is positive, every radial velocity is positive, no velocity changed magnitude, and the radii are the original ones, in the original order if dx_km was positive and reversed if it was negative; data with mixed-sign or zero velocities, or decreasing radius with positive velocity, are always rejected.", "quantifier": "all tau objects with NaN-free velocities and spacing and matching array lengths, of any size", "why_tests_cant": "Sign patterns of a whole array and the interplay with dx have unboundedly many cases.", "anchors": ["src/tau/rss_ringoccs_tau_check_occ_type.c: rssringoccs_Tau_Check_Occ_Type"]}
{"id": "C08", "title": "Reversing ingress data keeps every sample's columns together", "statement": "After Check_Occ_Type succeeds there is a single permutation of row numbers (identity or reversal) such that every per-sample array of the tau object (geometry, times, complex amplitude T_in, wavenumber k, Fresnel scale F) is the original array under that permutation (velocities up to sign).", "quantifier": "all tau objects, all lengths, all contents", "why_tests_cant": "A column left out of the reversal is invisible on symmetric or egress data and on any test that only inspects the reversed columns.", "anchors": ["src/tau/rss_ringoccs_tau_check_occ_type.c: rssringoccs_Tau_Check_Occ_Type lines 207-229"]}
{"id": "C09", "title": "The selected processing range lies in the data and in the requested radii", "statement": "When Get_Window_Width succeeds, start and n_used satisfy start + n_used < arr_size, every radius in the processing range is within the requested [range0, range1], and range0/range1 are replaced by radii of the data; no element outside the arrays is ever read or written, even for NaN or unsorted radii.", "quantifier": "all tau objects that passed Check_Keywords and Check_Occ_Type with full-length arrays; all radii contents for the memory claim, sorted radii for the containment claim; all window widths", "why_tests_cant": "Two data-dependent while loops without an explicit bound and two in-place cuts; off-by-one and run-away cases depend on unbounded data.", "anchors": ["src/tau/rss_ringoccs_tau_get_window_width.c: rssringoccs_Tau_Get_Window_Width"]}
{"id": "C10", "title": "Every accepted window fits in the available data", "statement": "When Get_Window_Width and Check_Data_Range both succeed, then for every index n in the processing range the full window of floor(w[n]/(2 dx)) points on each side lies inside the arrays.", "quantifier": "all tau objects, all widths, all roundings of the division", "why_tests_cant": "The claim is about the last index of the last window for every possible rounding; a test would need to hit the exact boundary.", "anchors": ["src/tau/rss_ringoccs_tau_check_data_range.c: rssringoccs_Tau_Check_Data_Range", "src/tau/rss_ringoccs_tau_get_window_width.c"]}
{"id": "C11", "title": "The processing range is the largest possible one", "statement": "Get_Window_Width keeps every requested point whose window [rho-w/2, rho+w/2] lies strictly inside the data: no legal interior point is discarded.", "quantifier": "all sorted radius arrays and widths", "why_tests_cant": "The loss of a single end point is invisible unless the exact count is compared for every data set.", "anchors": ["src/tau/rss_ringoccs_tau_get_window_width.c lines 143-210"]}
{"id": "C12", "title": "The window width of a point is computed from that point's own data", "statement": "For every n in the processing range, w[n] depends only on the Fresnel scale, wavenumber, radial velocity of row n and the scalar parameters: without the b-factor w[n] = 2 F[n]^2 normeq/resolution; with it, w[n] = normeq * ResolutionInverse(P_n)/alpha_n with alpha_n, P_n built from row n.", "quantifier": "all tau objects, all starting indices, all contents", "why_tests_cant": "Index shifts (rho_dot[n] instead of rho_dot[start+n]) cancel out whenever start = 0 or the velocity is constant, as in typical tests.", "anchors": ["src/tau/rss_ringoccs_tau_get_window_width.c lines 103-141"]}
{"id": "C13", "title": "Reconstruction can be applied once; a second call is a clean error", "statement": "If Reconstruction succeeded on a tau object, calling Reconstruction again sets an error, has no undefined behaviour, and leaves all arrays of the first result intact.", "quantifier": "all tau objects on which the first call succeeded", "why_tests_cant": "Requires reasoning about the state left by an arbitrary successful run (arrays of different lengths).", "anchors": ["src/reconstruction/rss_ringoccs_reconstruction.c", "src/tau/rss_ringoccs_tau_get_window_width.c lines 85-96", "src/tau/rss_ringoccs_tau_finish.c"]}
{"id": "C14", "title": "Finish keeps all per-sample arrays aligned", "statement": "After Finish on an error-free tau object with full-length arrays, arr_size equals n_used, and every per-sample array of the tau object is exactly the slice [start, start+n_used) of what it was, so that row i of every exposed column refers to the same radius.", "quantifier": "all tau objects, all start / n_used with start+n_used <= arr_size, all contents", "why_tests_cant": "Columns that are not sliced (rx, ry, rz) stay longer than arr_size: reading them never crashes and agrees with the right values whenever start = 0.", "anchors": ["src/tau/rss_ringoccs_tau_finish.c: rssringoccs_Tau_Finish", "rss_ringoccs/crssringoccs/auxiliary/crssringoccs_c_tau_to_py_tau.c: crssringoccs_C_Tau_To_Py_Tau"]}
{"id": "C15", "title": "Destroying a tau object frees everything exactly once and is idempotent", "statement": "Tau_Destroy_Members frees each of the 21 owned arrays exactly once and nulls it, so it may be called repeatedly; Tau_Destroy then frees the object and leaves the caller's pointer NULL so that calling it again is harmless.", "quantifier": "every tau object, every subset of arrays allocated, any number of repeated calls", "why_tests_cant": "Double frees and dangling pointers depend on the subset of allocated members and on call sequences; tests without a sanitizer do not observe them.", "anchors": ["src/tau/rss_ringoccs_tau_destroy.c: rssringoccs_Tau_Destroy", "src/tau/rss_ringoccs_tau_destroy_members.c: rssringoccs_Tau_Destroy_Members"]}
{"id": "C16", "title": "Resizing the window arrays never corrupts the heap", "statement": "Tau_Resize_Half_Window either leaves both arrays valid with at least nw_pts entries holding the window of the current centre, or sets an error, frees both arrays exactly once and nulls the caller's pointers.", "quantifier": "every tau, every pair of widths, every outcome of the two realloc calls including realloc to size zero", "why_tests_cant": "Requires the allocator to fail at a chosen call, or return NULL for size zero (implementation defined), which tests on one platform do not exercise.", "anchors": ["src/tau/rss_ringoccs_tau_resize_half_window.c: rssringoccs_Tau_Resize_Half_Window"]}
{"id": "C17", "title": "Window-type names are recognised exactly, ignoring case and blanks", "statement": "Set_Window_Type accepts exactly the eight documented names up to letter case and white space, selects the matching window function and normalised equivalent width, does not modify the caller's string, and every other string (or NULL) sets an error; nothing else in the tau object changes.", "quantifier": "all strings of all lengths", "why_tests_cant": "The set of strings is infinite; the negative half (nothing else is accepted) is beyond sampling.", "anchors": ["src/tau/rss_ringoccs_tau_set_window_type.c: rssringoccs_Tau_Set_Window_Type"]}
{"id": "C18", "title": "Reconstruction-method names are recognised exactly, ignoring case and blanks", "statement": "Set_Psi_Type maps the documented names (newtonriemann, newtonfilon01/11/02/12, newtonperturb, ellipse, simplefft, newton4/8/16, fresnel, fresnelN) to the corresponding method, with fresnel and fresnel2 the quadratic one and fresnelN (N >= 3) the Legendre method of degree N (order N-1); every other string sets an error and psinum to None, so no unusable method number is ever stored without an error.", "quantifier": "all strings of all lengths", "why_tests_cant": "Infinite input space; precedence between the prefix rule fresnelN and exact names and the degenerate N=0,1 cases need all strings.", "anchors": ["src/tau/rss_ringoccs_tau_set_psi_type.c: rssringoccs_Tau_Set_Psi_Type"]}
{"id": "C19", "title": "Named radial ranges", "statement": "Set_Range_From_String accepts exactly the documented feature names (ignoring case and white space), stores the documented radii, for which 0 < range[0] < range[1] always holds, and treats every other string and NULL as an error without touching the rest of the object.", "quantifier": "all strings", "why_tests_cant": "Infinite input space; also the ordering 0<lo<hi must hold for every accepted name so that Check_Range can never reject a named range.", "anchors": ["src/tau/rss_ringoccs_tau_set_range_from_string.c: rssringoccs_Tau_Set_Range_From_String"]}
{"id": "C20", "title": "Every selectable method reaches an implemented transform", "statement": "For every method string accepted by Set_Psi_Type, Diffraction_Correction dispatches to the driver of that method and the transform table lookups never read outside their table nor return NULL; the enum values that lack an implementation are reported as errors, not called.", "quantifier": "all strings accepted by the parser and all 17 enum values", "why_tests_cant": "A table/enum misalignment shows only for the method concerned; the claim couples the parser with two tables and the dispatcher for all strings.", "anchors": ["src/reconstruction/rss_ringoccs_diffraction_correction.c", "src/fresnel_transform/rss_ringoccs_tau_select_newton_transform.c", "src/fresnel_transform/rss_ringoccs_tau_select_newton_interp_transform.c", "src/fresnel_transform/rss_ringoccs_newton_transform_table.c", "src/fresnel_transform/rss_ringoccs_newton_interp_transform_table.c", "include/types/rss_ringoccs_psitype.h"]}
{"id": "C21", "title": "The half-window Fresnel sum equals the full symmetric window sum", "statement": "rssringoccs_Fresnel_Transform computes (1+i) * s * sum over j in [-N, N] of w_|j| exp(-i sgn psi_|j|) T_in[center+j] (with w_0 = 1, psi_0 = 0), s = dx/(2F) without normalisation and 1/(sqrt2 |sum w exp|) with it, sgn = +1 inverse / -1 forward, reading each of the 2N+1 samples exactly once and nothing else.", "quantifier": "all data, all window sizes N, all centres, all phases and window values (exact arithmetic)", "why_tests_cant": "Index pairing (center-n with x_arr[m]) is a property of all N; tests at one window size do not show it and numerical comparison hides swapped symmetric terms.", "anchors": ["src/fresnel_transform/rss_ringoccs_fresnel_transform.c: rssringoccs_Fresnel_Transform"]}
{"id": "C22", "title": "All transforms are linear in the diffracted data", "statement": "For every method the output at a point is a complex-linear functional of T_in: scaling and superposing inputs scales and superposes outputs (the normalisation does not depend on the data).", "quantifier": "all methods, all data, all window sizes", "why_tests_cant": "Universally quantified over pairs of data sets and all coefficients.", "anchors": ["src/fresnel_transform/rss_ringoccs_fresnel_transform.c", "src/fresnel_transform/rss_ringoccs_fresnel_transform_newton_riemann.c", "src/fresnel_transform/rss_ringoccs_fresnel_transform_even_polynomial.c", "src/fresnel_transform/rss_ringoccs_fresnel_transform_legendre_odd.c", "src/fresnel_transform/rss_ringoccs_fresnel_transform_newton8.c", "src/fresnel_transform/rss_ringoccs_fresnel_transform_newton16.c", "src/fresnel_transform/rss_ringoccs_fresnel_transform_newton4.c", "src/fresnel_transform/rss_ringoccs_fresnel_transform_newton_filon01.c"]}
{"id": "C23", "title": "Normalised transforms preserve free space", "statement": "With window normalisation on, a constant input c (free space) is reconstructed with modulus exactly |c| at every processed point, whenever the window sum is non-zero.", "quantifier": "all constants, windows, phases, sizes; every method that normalises", "why_tests_cant": "An identity between two sums for every window and phase; tests see it only to rounding error at sampled geometries, where an omitted sample (Newton-Riemann omits the last one) is numerically invisible.", "anchors": ["src/fresnel_transform/rss_ringoccs_fresnel_transform.c", "src/fresnel_transform/rss_ringoccs_fresnel_transform_normalized_even_polynomial.c", "src/fresnel_transform/rss_ringoccs_fresnel_transform_legendre_odd_norm.c", "src/fresnel_transform/rss_ringoccs_fresnel_transform_newton8.c", "src/fresnel_transform/rss_ringoccs_fresnel_transform_newton16.c", "src/fresnel_transform/rss_ringoccs_fresnel_transform_newton_riemann.c"]}
{"id": "C24", "title": "Forward and inverse transforms use conjugate kernels", "statement": "Switching use_fwd conjugates the kernel: with real input the forward transform's kernel sum is the complex conjugate of the inverse one, for every method that offers forward modelling.", "quantifier": "all data and windows; every method", "why_tests_cant": "Several methods silently ignore use_fwd; a claim about every method and all data.", "anchors": ["src/fresnel_transform/rss_ringoccs_fresnel_transform.c lines 216-219", "src/fresnel_transform/rss_ringoccs_fresnel_kernel.c", "src/fresnel_transform/rss_ringoccs_fresnel_transform_newton8.c", "src/fresnel_transform/rss_ringoccs_fresnel_transform_newton16.c", "src/fresnel_transform/rss_ringoccs_fresnel_transform_elliptical_newton.c", "src/fresnel_transform/rss_ringoccs_fresnel_transform_perturbed_newton.c"]}
{"id": "C25", "title": "Legendre phases evaluate the intended polynomial", "statement": "The phase used at the sample with displacement x is kD * sum_{i<order} L_i (x/D)^(i+2) evaluated at the sample's own signed displacement, for odd and even degree, with and without normalisation; in particular all four Legendre transforms agree on the phase for the same coefficients.", "quantifier": "all orders >= 2, all coefficients, all displacements", "why_tests_cant": "Horner loops with stride 2 from the top: a wrong bound or a flipped odd part matters only for particular parities and orders, and only the polynomial identity for all orders excludes it.", "anchors": ["src/fresnel_transform/rss_ringoccs_fresnel_transform_legendre_odd.c: rssringoccs_Fresnel_Transform_Legendre_Odd", "src/fresnel_transform/rss_ringoccs_fresnel_transform_legendre_odd_norm.c", "src/fresnel_transform/rss_ringoccs_fresnel_transform_even_polynomial.c", "src/fresnel_transform/rss_ringoccs_fresnel_transform_normalized_even_polynomial.c"]}
{"id": "C26", "title": "Legendre degree parity selects the right transform", "statement": "Diffraction_Correction_Legendre selects the even-degree routine exactly when the degree order+1 is even and the normalised one exactly when use_norm is set, and never indexes outside its table; for every order the parser can produce the routines do not read outside the coefficient array.", "quantifier": "all orders, both use_norm values", "why_tests_cant": "Parity conventions (number of coefficients vs degree) hold for all N or not at all.", "anchors": ["src/reconstruction/rss_ringoccs_diffraction_correction_legendre.c lines 150-160"]}
{"id": "C27", "title": "Degree-4 interpolation is exact at its five nodes", "statement": "The coefficients produced by the quartic interpolation of Newton4 define the unique polynomial of degree <= 4 that takes the five sampled phases (and weights) at x = -1/2,-1/4,0,1/4,1/2 (units of the window), hence reproduces every polynomial phase of degree <= 4 exactly.", "quantifier": "all five sample values", "why_tests_cant": "An algebraic identity in five unknowns.", "anchors": ["src/fresnel_transform/rss_ringoccs_fresnel_transform_newton4.c: rssringoccs_deg4_interp"]}
{"id": "C28", "title": "Newton8 and Newton16 interpolation tables are correct", "statement": "The 32 (Newton8) and 128 (Newton16) decimal constants define an odd/even polynomial that passes through 0 at the centre and through each of the 8 / 16 sampled phases at its node, up to an error of at most 1e-20 (Newton8) / 1e-16 (Newton16) times the sum of absolute sample values, for all sample values.", "quantifier": "all values of the 8 / 16 sampled phases", "why_tests_cant": "One mistyped digit among 160 constants changes one basis function only; the bound for all inputs needs exact arithmetic on the table.", "anchors": ["src/fresnel_transform/rss_ringoccs_fresnel_transform_newton8.c lines 13-60, 121-148", "src/fresnel_transform/rss_ringoccs_fresnel_transform_newton16.c lines 13-200, 268-311"]}
{"id": "C29", "title": "Interpolated Newton methods visit every window sample exactly once", "statement": "For every window size nw and centre c with nw <= c and c + nw < arr_size, Newton4, Newton8 and Newton16 read T_in exactly at the 2 nw + 1 samples c-nw..c+nw (each once), and the interpolation nodes c +- k*shift lie inside the same window; no other sample and no out-of-range element is read.", "quantifier": "all nw, all centres, all lengths", "why_tests_cant": "Index arithmetic over all window sizes, including sizes below the node count.", "anchors": ["src/fresnel_transform/rss_ringoccs_fresnel_transform_newton4.c", "src/fresnel_transform/rss_ringoccs_fresnel_transform_newton8.c", "src/fresnel_transform/rss_ringoccs_fresnel_transform_newton16.c"]}
{"id": "C30", "title": "Small windows do not silently produce garbage in the interpolated Newton methods", "statement": "Whenever an interpolated Newton transform returns, the interpolation width it divides by is non-zero, i.e. the window has at least 2, 4 or 8 points per side (Newton4, 8, 16).", "quantifier": "all window sizes", "why_tests_cant": "Depends on w/dx dropping below a threshold at some point of the data.", "anchors": ["src/fresnel_transform/rss_ringoccs_fresnel_transform_newton4.c lines 54-60", "src/fresnel_transform/rss_ringoccs_fresnel_transform_newton8.c lines 80-85", "src/fresnel_transform/rss_ringoccs_fresnel_transform_newton16.c lines 220-225"]}
{"id": "C31", "title": "The Newton-Riemann sum covers the whole window", "statement": "rssringoccs_Fresnel_Transform_Newton_Riemann sums the kernel over all nw_pts samples of the symmetric window.", "quantifier": "all window sizes, data, kernels", "why_tests_cant": "Dropping the last sample changes the result by one term, numerically hidden because tapers vanish at the edge for most windows (but not for rect).", "anchors": ["src/fresnel_transform/rss_ringoccs_fresnel_transform_newton_riemann.c line 66"]}
{"id": "C32", "title": "Results do not depend on the number of OpenMP threads", "statement": "Diffraction_Correction_Newton and _Fresnel give the same T_out for every number of threads and every static chunking of the points.", "quantifier": "all data, all window-width profiles, all chunkings into contiguous blocks", "why_tests_cant": "Each thread carries its own stale window; the difference appears only for width profiles with drifts smaller than 2 dx relative to a chunk boundary. Tests run one thread count.", "anchors": ["src/reconstruction/rss_ringoccs_diffraction_correction_newton.c lines 107-196", "src/reconstruction/rss_ringoccs_diffraction_correction_fresnel.c lines 327-440"]}
{"id": "C33", "title": "Drivers only hand in-bounds windows to the transforms", "statement": "Whenever a driver (Newton, Fresnel, Legendre, Polynomial_Newton) calls its transform at a centre with a half-window of m points, m <= centre and centre + m < arr_size, and m does not exceed the allocated window arrays.", "quantifier": "all data and width profiles accepted by Check_Data_Range, all chunkings", "why_tests_cant": "The window kept is the stale one from an earlier point, which Check_Data_Range never looked at; boundary cases depend on the entire profile.", "anchors": ["src/reconstruction/rss_ringoccs_diffraction_correction_newton.c", "src/reconstruction/rss_ringoccs_diffraction_correction_fresnel.c line 396", "src/reconstruction/rss_ringoccs_diffraction_correction_legendre.c", "src/reconstruction/rss_ringoccs_diffraction_correction_polynomial_newton.c", "src/tau/rss_ringoccs_tau_check_data_range.c"]}
{"id": "C34", "title": "Only the processing range of T_out is written", "statement": "A driver writes T_out exactly at start..start+n_used-1, each entry once, and leaves every other array of the tau object unchanged.", "quantifier": "all tau objects", "why_tests_cant": "Extra writes (Fresnel uses n <= n_used) or side effects on inputs (Legendre negates k_vals) do not show in the returned slice.", "anchors": ["src/reconstruction/rss_ringoccs_diffraction_correction_fresnel.c line 396", "src/reconstruction/rss_ringoccs_diffraction_correction_legendre.c lines 164-169"]}
{"id": "C35", "title": "The forward model uses the same wavenumbers as the reconstruction", "statement": "Running the Legendre method in the forward direction negates the wavenumber of exactly the processed points for the duration of the computation; afterwards k_vals is what it was before.", "quantifier": "all tau objects, all start/n_used", "why_tests_cant": "With start = 0 and a single call the wrong range is invisible.", "anchors": ["src/reconstruction/rss_ringoccs_diffraction_correction_legendre.c lines 162-169"]}
{"id": "C36", "title": "use_norm and use_fwd are honoured by every method", "statement": "For every method, changing use_norm changes the output scale between the normalised and the dx-scaled one, and changing use_fwd switches between inverse and forward transform.", "quantifier": "all methods, all data", "why_tests_cant": "Needs the pairwise comparison of every method under every flag for all data.", "anchors": ["src/fresnel_transform/rss_ringoccs_fresnel_transform_newton_filon02.c", "src/fresnel_transform/rss_ringoccs_fresnel_transform_newton_filon12.c", "src/fresnel_transform/rss_ringoccs_fresnel_transform_newton4.c", "src/fresnel_transform/rss_ringoccs_fresnel_transform_newton8.c", "src/fresnel_transform/rss_ringoccs_fresnel_transform_newton16.c", "src/fresnel_transform/rss_ringoccs_fresnel_transform_elliptical_newton.c", "src/fresnel_transform/rss_ringoccs_fresnel_transform_perturbed_newton.c"]}
{"id": "C37", "title": "FFT method equals the direct sum and stays in bounds", "statement": "Diffraction_Correction_SimpleFFT reads only samples inside the arrays for every processing range accepted by Check_Data_Range, its FFT length is a power of two at least 2*data_size-1 (no wrap-around), and its output at each processed point equals the direct windowed sum with the kernel of the central point.", "quantifier": "all tau objects; all n_used, window sizes", "why_tests_cant": "Index shift arithmetic modulo the FFT length for all sizes and parities; the required padding differs from what was range-checked by a factor two.", "anchors": ["src/reconstruction/rss_ringoccs_diffraction_correction_simple_fft.c"]}
{"id": "C38", "title": "Reconstruction is transactional with respect to forward modelling", "statement": "If Reconstruction returns without error then T_in is the original input (sliced), T_out the reconstruction and T_fwd (if use_fwd) the forward model; if the forward model is impossible, the object carries the error documented in the message (T_fwd an array of zeros) with T_in and T_out still input and reconstruction, and nothing is leaked.", "quantifier": "all tau objects with use_fwd set", "why_tests_cant": "The failing branch is reached for particular n_used/window combinations and the swapped pointers are all valid arrays, so nothing crashes.", "anchors": ["src/reconstruction/rss_ringoccs_reconstruction.c lines 40-80"]}
{"id": "C39", "title": "Reconstruction end to end: output rows match input rows", "statement": "If Reconstruction succeeds, row i of every exposed output column is row start+i of the (possibly reversed) input, for one common start.", "quantifier": "all DLPs and settings", "why_tests_cant": "Composition of reversal, window cut and slicing; each column must follow the same index map for all data.", "anchors": ["src/reconstruction/rss_ringoccs_reconstruction.c", "src/tau/rss_ringoccs_tau_finish.c", "src/tau/rss_ringoccs_tau_check_occ_type.c", "rss_ringoccs/crssringoccs/auxiliary/crssringoccs_c_tau_to_py_tau.c: crssringoccs_C_Tau_To_Py_Tau"]}
{"id": "C40", "title": "CSV column-count check", "statement": "Each *_Check_Column_Count accepts exactly the documented number of comma separated columns (CAL 4, DLP 13, GEO 19, TAU 13, Merged 19, Uranus DLP 17, with 12/18/12 in the deprecated formats) of the file's first line, otherwise sets an error; nothing else changes.", "quantifier": "all files", "why_tests_cant": "Infinite input space.", "anchors": ["src/csv_tools/rss_ringoccs_dlp_csv_check_column_count.c", "src/csv_tools/rss_ringoccs_geo_csv_check_column_count.c", "src/csv_tools/rss_ringoccs_cal_csv_check_column_count.c", "src/csv_tools/rss_ringoccs_tau_csv_check_column_count.c", "src/csv_tools/rss_ringoccs_merged_csv_data_check_column_count.c", "src/csv_tools/rss_ringoccs_uranus_dlp_csv_check_column_count.c"]}
{"id": "C41", "title": "Reading back a well-formed CSV gives exactly the written table", "statement": "For a file whose every line has the documented number of non-empty comma separated fields and fewer than 1023 characters, Read_Data stores in column c, row r of the object the number in field c of line r, for every row and column, with no memory error.", "quantifier": "all tables of any number of rows, all field texts", "why_tests_cant": "Column/field permutations for 13-19 columns and arbitrary many rows.", "anchors": ["src/csv_tools/rss_ringoccs_dlp_csv_read_data.c", "src/csv_tools/rss_ringoccs_geo_csv_read_data.c", "src/csv_tools/rss_ringoccs_cal_csv_read_data.c", "src/csv_tools/rss_ringoccs_tau_csv_read_data.c", "src/csv_tools/rss_ringoccs_merged_csv_data_read_data.c", "src/csv_tools/rss_ringoccs_uranus_dlp_csv_read_data.c"]}
{"id": "C42", "title": "Malformed CSV rows are rejected, not misread", "statement": "A row with a missing field, an empty field, or more than 1023 characters leads to an error in the object - never to undefined behaviour or to values stored in the wrong column.", "quantifier": "all files whose first line has the right column count", "why_tests_cant": "The number of ways a file can be malformed is unbounded; memory errors do not necessarily crash a test.", "anchors": ["src/csv_tools/rss_ringoccs_dlp_csv_read_data.c lines 42-163"]}
{"id": "C43", "title": "CSV extraction frees what it owns exactly once", "statement": "CSVData_Extract hands the DLP arrays over to the CSVData object without copying and afterwards every allocation is reachable from the returned object exactly once; destroying the object frees each exactly once. This holds on every error path, including allocation failure.", "quantifier": "all file outcomes and all allocation failure patterns", "why_tests_cant": "Requires failing each individual allocation; aliasing bugs do not crash without a sanitizer.", "anchors": ["src/csv_tools/rss_ringoccs_csv_data_extract.c", "src/csv_tools/rss_ringoccs_csv_data_steal_dlp_data.c", "src/csv_tools/rss_ringoccs_csv_data_malloc.c", "src/csv_tools/rss_ringoccs_csv_data_destroy_members.c", "src/csv_tools/rss_ringoccs_uranus_csv_data_extract.c"]}
{"id": "C44", "title": "Extraction errors are reported, never crash", "statement": "If any of the input files of CSVData_Extract / UranusCSVData_Extract is missing or invalid, the returned object has error_occurred set with a message, and no NULL pointer is dereferenced.", "quantifier": "all combinations of failing inputs", "why_tests_cant": "Every subset of failing inputs and both extractors.", "anchors": ["src/csv_tools/rss_ringoccs_uranus_csv_data_extract.c lines 37-87", "src/csv_tools/rss_ringoccs_csv_data_extract.c"]}
{"id": "C45", "title": "Chord-occultation detection", "statement": "Check_Chord_Occ classifies the geometry by the sign of d rho/dt: strictly increasing radius in time is egress, strictly decreasing is ingress (and the six geometry columns are then reversed), anything else is an error.", "quantifier": "all DLP profiles of any length", "why_tests_cant": "All sign patterns of all lengths, incl. one-row tables and NaN.", "anchors": ["src/csv_tools/rss_ringoccs_csv_data_check_chord_occ.c: rssringoccs_CSVData_Check_Chord_Occ", "src/csv_tools/rss_ringoccs_csv_data_reverse_geo_variables.c"]}
{"id": "C46", "title": "Skipping the unwanted part of the geometry never leaves the array", "statement": "The loop that advances over geometry rows of the other occultation side stops inside the array for every geometry; afterwards the retained part starts at a row whose radial velocity has the right sign.", "quantifier": "all geometry tables", "why_tests_cant": "The run-off happens only if no row has the expected sign.", "anchors": ["src/csv_tools/rss_ringoccs_csv_data_check_chord_occ.c lines 90-139", "src/csv_tools/rss_ringoccs_uranus_csv_data_check_chord_occ.c"]}
{"id": "C47", "title": "Interpolated columns have DLP length and use matching rows", "statement": "After extraction D, rho_dot, rx, ry, rz and f_sky have one entry per DLP row; f_sky is the interpolation (in observed event time) of predicted minus residual frequency of the same calibration rows; geometry columns are interpolated in radius over the retained rows only.", "quantifier": "all inputs", "why_tests_cant": "All lengths and offsets.", "anchors": ["src/csv_tools/rss_ringoccs_csv_data_interpolate_geo.c", "src/csv_tools/rss_ringoccs_csv_data_interpolate_cal.c", "src/csv_tools/rss_ringoccs_csv_data_interpolate_tau.c"]}
{"id": "C48", "title": "Deprecated formats recover the power from the optical depth", "statement": "For the deprecated DLP/TAU formats, p_norm[n] = exp(-tau[n]/|sin B[n]|) for each row, positive and, for tau >= 0, at most 1, inverting tau = -|sin B| ln p.", "quantifier": "all rows, all optical depths and opening angles", "why_tests_cant": "A real-analytic identity for all values.", "anchors": ["src/csv_tools/rss_ringoccs_csv_data_steal_dlp_data.c", "src/csv_tools/rss_ringoccs_csv_data_interpolate_tau.c"]}
{"id": "C49", "title": "Merged files: the header line is optional", "statement": "A merged CSV with or without the header line yields the same table: n_elements equals the number of data rows and every column the same values.", "quantifier": "all tables", "why_tests_cant": "Header detection looks at one character; claim for all files including files with only a header.", "anchors": ["src/csv_tools/rss_ringoccs_merged_csv_data_read_data.c", "src/csv_tools/rss_ringoccs_merged_csv_data_extract.c"]}
{"id": "C50", "title": "Uranus angles are converted to degrees exactly once", "statement": "UranusDLP data flagged as radians have phi_rl, phi, phase and B multiplied by 180/pi once, other columns untouched, and the flag cleared; data flagged as degrees are unchanged.", "quantifier": "all tables", "why_tests_cant": "All rows, idempotence under repeated processing.", "anchors": ["src/csv_tools/rss_ringoccs_uranus_dlp_csv_read_data.c"]}
{"id": "C51", "title": "Date to rev lookup", "statement": "Date_to_Rev(year, doy) returns the revolution whose tabulated observation has that date, NULL if there is none or the arguments are out of range; it never reads outside its three tables; and the date determines the rev uniquely.", "quantifier": "all unsigned years and days", "why_tests_cant": "All 2^64 argument pairs; ambiguity of table entries.", "anchors": ["src/history/rss_ringoccs_date_to_rev.c: rssringoccs_Date_to_Rev"]}
{"id": "C52", "title": "Printing a history never reads outside its arrays", "statement": "History_Print terminates and reads only elements 0..16 of input_vars and input_kwds for every history whose lists are NULL-terminated, and for full lists.", "quantifier": "all histories", "why_tests_cant": "All fill patterns of two 17-element pointer arrays.", "anchors": ["src/history/rss_ringoccs_history_print.c: rssringoccs_History_Print"]}
{"id": "C53", "title": "Left straight-edge model sets the ideal profile", "statement": "Tau_Model_Left_Straightedge starts from T_in = transmittance for radii below the edge and 0 from the edge on, for every monotone radius array, including edges outside the data; it never reads outside rho_km_vals.", "quantifier": "all radius arrays and edges", "why_tests_cant": "All positions of the edge relative to the samples, including equality.", "anchors": ["src/model/rss_ringoccs_tau_model_left_straightedge.c"]}
{"id": "C54", "title": "Right straight-edge model sets the ideal profile", "statement": "Tau_Model_Right_Straightedge sets T_in to 0 below the edge and to the transmittance from the edge on, for all arrays; left and right models with the same edge are complementary.", "quantifier": "all radius arrays and edges", "why_tests_cant": "All positions of the edge.", "anchors": ["src/model/rss_ringoccs_tau_model_right_straightedge.c"]}
{"id": "C55", "title": "The sine-wave model accepts sine-wave parameters", "statement": "Tau_Model_Sine_Wave works for parameters whose model is SineWave.", "quantifier": "all parameters", "why_tests_cant": "Decision logic over the enum for all objects.", "anchors": ["src/model/rss_ringoccs_tau_model_sine_wave.c"]}
{"id": "C56", "title": "Models leave the user's settings unchanged", "statement": "After a straight-edge model run (successful or not) use_fwd, start and n_used have the values they had before.", "quantifier": "all tau objects and outcomes", "why_tests_cant": "Early-return error paths skip the restoring code; reached only for particular n_used/window ratios.", "anchors": ["src/model/rss_ringoccs_tau_model_left_straightedge.c"]}
{"id": "C57", "title": "Python range argument", "statement": "DiffractionCorrection(rng=...) accepts a string naming a range or a list of exactly two ints/floats; every other object sets an error; a list [a,b] sets range to exactly (a,b).", "quantifier": "all Python objects of the modelled universe", "why_tests_cant": "Infinite object space.", "anchors": ["rss_ringoccs/crssringoccs/diffraction_correction/crssringoccs_get_py_range.c"]}
{"id": "C58", "title": "Python perturbation argument", "statement": "perturb omitted means five zeros; a list of exactly five numbers is stored in order; anything else is an error.", "quantifier": "all Python objects of the modelled universe", "why_tests_cant": "Infinite object space.", "anchors": ["rss_ringoccs/crssringoccs/diffraction_correction/crssringoccs_get_py_perturbation.c"]}
{"id": "C59", "title": "Bad DLP attributes raise a Python error, never crash", "statement": "Extracting an attribute that is missing, not a numpy array, of the wrong dimension or of the wrong length sets an error in the DLP object and never has undefined behaviour.", "quantifier": "all objects", "why_tests_cant": "All type/shape combinations.", "anchors": ["rss_ringoccs/crssringoccs/auxiliary/crssringoccs_extract_data.c"]}
{"id": "C60", "title": "Drivers use the window of the current point up to two samples", "statement": "At every point the window in use was computed for a width that differs from the point's own width by less than 2 dx (one sample per side).", "quantifier": "all width profiles, all chunkings", "why_tests_cant": "An invariant of a loop over arbitrary data.", "anchors": ["src/reconstruction/rss_ringoccs_diffraction_correction_newton.c lines 168-190", "src/tau/rss_ringoccs_tau_resize_half_window.c"]}
{"id": "C65", "title": "Phases of the elliptical and the perturbed Newton method", "statement": "The perturbed Newton method adds k D (p0 + p1 x + p2 x^2 + p3 x^3 + p4 x^4) with x = (r0 - r)/D to the Fresnel phase; the elliptical method evaluates the phase at the radius of the ellipse through the centre point, with all longitudes in degrees.", "quantifier": "all profiles, eccentricities, periapses, coefficients and window positions", "why_tests_cant": "The result depends continuously on seven arrays and parameters; a wrong unit or coefficient still gives smooth plausible output.", "anchors": ["src/fresnel_transform/rss_ringoccs_fresnel_transform_elliptical_newton.c", "src/fresnel_transform/rss_ringoccs_fresnel_transform_perturbed_newton.c"]}
{"id": "C66", "title": "The Python constructor reports success and failure correctly and applies its arguments", "statement": "DiffractionCorrection(...) either fails, with a Python exception set and no arrays handed out, or succeeds without a pending exception, and then the result is the reconstruction of an object made from exactly the attributes of the DLP argument, with exactly the settings of the call (documented defaults for omitted ones); on every path the temporary C objects are released.", "quantifier": "all arguments, all behaviours of allocation and of the library", "why_tests_cant": "Fourteen optional arguments of dynamic type times all failure points of the C code below.", "anchors": ["rss_ringoccs/crssringoccs/diffraction_correction/crssringoccs_diffraction_correction_init.c", "rss_ringoccs/crssringoccs/auxiliary/crssringoccs_py_dlp_to_c_dlp.c", "rss_ringoccs/crssringoccs/auxiliary/crssringoccs_get_py_vars_from_tau_self.c"]}
{"id": "C61", "title": "String setters release their temporary copy", "statement": "Tau_Set_Window_Type, Tau_Set_Psi_Type and Tau_Set_Range_From_String release the copy of their argument on every path and report a failed copy as an error.", "quantifier": "all strings, NULL, all prior states, both outcomes of the allocation", "why_tests_cant": "A leak has no observable effect in a functional test; a failed allocation of a few bytes does not occur in tests.", "anchors": ["src/tau/rss_ringoccs_tau_set_window_type.c", "src/tau/rss_ringoccs_tau_set_psi_type.c", "src/tau/rss_ringoccs_tau_set_range_from_string.c"]}
{"id": "C62", "title": "Temporary arrays are released on every path", "statement": "Tau_Get_Window_Width and the reconstruction drivers release all temporary arrays they allocate (index arrays, window buffers of all threads, polynomial coefficients) on every exit, and check every allocation.", "quantifier": "all data-dependent exits, all numbers of threads, all resize histories, all patterns of failing allocations", "why_tests_cant": "Allocation failures at each of up to 13 calls times all exits; leaks are invisible to functional tests.", "anchors": ["src/tau/rss_ringoccs_tau_get_window_width.c", "src/reconstruction/", "src/tau/rss_ringoccs_tau_resize_half_window.c"]}
{"id": "C64", "title": "The arrays of a tau object: each owned once, all released", "statement": "From creation over reconstruction (any method, with or without forward modelling, successful or not) to destruction, every array of a tau object is referenced by exactly one member, nothing is freed twice, and afterwards the heap holds exactly the blocks from before.", "quantifier": "all data-dependent outcomes, all methods, all patterns of failing allocations", "why_tests_cant": "Ownership moves between T_in, T_out, T_fwd and local variables; only a whole-program invariant covers all interleavings of failures.", "anchors": ["src/reconstruction/rss_ringoccs_reconstruction.c", "src/tau/rss_ringoccs_tau_malloc_members.c", "src/tau/rss_ringoccs_tau_finish.c", "src/tau/rss_ringoccs_tau_destroy_members.c"]}
{"id": "C68", "title": "RSR header fields are read at their documented offsets", "statement": "For every byte string of at least 260 bytes the RSR reader decodes every named header field from exactly the bytes at its offset in the SFDU layout (big-endian, with the right size, sign and type); a shorter file is rejected with an error.", "quantifier": "all byte strings", "why_tests_cant": "There are 78 fields whose offsets depend on the sum of the sizes of all fields before them; sample files only fix a few of them.", "anchors": ["rss_ringoccs/rsr_reader/rsr_reader.py lines 138-216 and 317-335"]}
{"id": "C69", "title": "RSR samples are decoded exactly and in order", "statement": "For every well-formed RSR file the complex signal consists of all samples of all blocks in the order of time, I as real part and Q as imaginary part; with the bias correction each 16-bit sample x becomes 2x+1. This holds for every sample value and every number of bits per sample that the header declares.", "quantifier": "all well-formed files, all sample values", "why_tests_cant": "65536 values per word and any number of blocks; the extreme value -32768 rarely occurs in data.", "anchors": ["rss_ringoccs/rsr_reader/rsr_reader.py lines 407-460 and 762-836"]}
{"id": "C70", "title": "One strictly increasing time per RSR sample", "statement": "Whatever IEEE rounding does, the reader builds as many times as there are samples, sample k is assigned the start time plus k sampling intervals up to 2^-30 s, and the times increase strictly.", "quantifier": "all well-formed files of 1, 16 or 50 kHz up to 2^19 seconds read without decimation, every rounding with relative error 2^-53", "why_tests_cant": "The number of points is computed through a float division and round(); an off-by-one would need particular file lengths.", "anchors": ["rss_ringoccs/rsr_reader/rsr_reader.py lines 337-362"]}
{"id": "C71", "title": "Decimation keeps signal and times consistent", "statement": "For every combination of the eight decimation keywords the signal is decimated by exactly the ratio of the sample rate of the file to the highest requested rate, in steps of at most 5, and the new times are the start plus k new sampling intervals, as many as there are samples; a file with any sample rate the receiver supports can be read.", "quantifier": "all keyword combinations, all well-formed files, all sample rates", "why_tests_cant": "256 combinations times three rates; the remaining sample rates are not in the test data.", "anchors": ["rss_ringoccs/rsr_reader/rsr_reader.py lines 421-433 and 595-760"]}
{"id": "C72", "title": "The predicted sky frequency uses the polynomial of the right block", "statement": "For every list of times within the file, get_f_sky_pred evaluates, for each time, the polynomial of the block that contains it: (rfif_lo + ddc_lo) * 1e6 minus the polynomial in the fraction of the second.", "quantifier": "all well-formed files and all lists of times", "why_tests_cant": "The block is found through the nearest sample, which differs from the containing block only in half-sample intervals.", "anchors": ["rss_ringoccs/rsr_reader/rsr_reader.py lines 462-593"]}
{"id": "C73", "title": "Date, station and tracking mode of an RSR file", "statement": "Year and day of the year are those of the header or, where they are 0 (DSS-74), those of the SFDU; stations, bands, gain and bandwidth are read at their offsets; the tracking mode is 2 exactly for observations after 2011.", "quantifier": "all headers", "why_tests_cant": "Depends on a header field being 0, which only one station produces.", "anchors": ["rss_ringoccs/rsr_reader/rsr_reader.py lines 350-352 and 364-387"]}
{"id": "C74", "title": "Seconds past midnight become the right UTC time", "statement": "For every time after the midnight of a given day, the text handed to SPICE names the instant that many seconds after that midnight, to 5e-14 s, and is a valid date and time, also after the end of the day or of the year.", "quantifier": "all times of at least 0 s up to the end of the following year, all days, all years", "why_tests_cant": "The wrong results need a time within 5e-14 s of a full minute, or a century year.", "anchors": ["rss_ringoccs/tools/spm_to_et.py lines 15-96"]}
{"id": "C75", "title": "Ephemeris times become continuous seconds past midnight", "statement": "For every increasing list of times, each result is the number of seconds since the midnight before the first time, or the one that begins the reference day.", "quantifier": "all lists of times, all reference days", "why_tests_cant": "The result looks plausible: it increases and is wrong only after midnight.", "anchors": ["rss_ringoccs/tools/et_to_spm.py lines 14-80"]}
{"id": "C76", "title": "Seconds past midnight survive the way to ephemeris time and back", "statement": "If SPICE's conversions are inverse to each other, spm_to_et followed by et_to_spm gives the times back to 5e-14 s.", "quantifier": "all increasing lists of times, all days and years, all inverse pairs of SPICE conversions", "why_tests_cant": "Needs SPICE kernels and an occultation that lasts into the next day.", "anchors": ["rss_ringoccs/tools/spm_to_et.py lines 15-96", "rss_ringoccs/tools/et_to_spm.py lines 14-80"]}
{"id": "C77", "title": "The Fresnel scale is the Fresnel scale", "statement": "calc_F_km returns the length F > 0 for which the quadratic phase of the diffraction kernel, minimised along the orbit, is pi/2 (x/F)^2 at every radial offset x; calc_D_km returns the light path between the two times.", "quantifier": "all distances, frequencies, opening angles with sin B not 0, azimuths", "why_tests_cant": "A wrong factor (cos instead of sin, a missing square) gives values of plausible size.", "anchors": ["rss_ringoccs/occgeo/calc_occ_geometry.py lines 75-118"]}
{"id": "C78", "title": "Effective opening angle and enhancement factor", "statement": "calc_B_eff_deg returns, in degrees as documented, the angle whose tangent is tan B / cos phi; calc_beta returns cos phi / tan B.", "quantifier": "all angles", "why_tests_cant": "The result is a small number in either unit.", "anchors": ["rss_ringoccs/occgeo/calc_occ_geometry.py lines 120-155"]}
{"id": "C79", "title": "Ring azimuth, longitude and opening angle", "statement": "The observed azimuth is in [0, 360) and is the angle counterclockwise about the pole from the projected line of sight to the ring intercept; longitudes are in [0, 360) and their differences are such angles; the opening angle is in [-90, 90] and its sine is the component of the line of sight along the pole; the pole is a unit vector.", "quantifier": "all positions and poles", "why_tests_cant": "Signs and quadrants agree for some geometries and differ for others.", "anchors": ["rss_ringoccs/occgeo/calc_occ_geometry.py lines 25-73", "rss_ringoccs/occgeo/calc_occ_geometry.py lines 257-332", "rss_ringoccs/occgeo/calc_occ_geometry.py lines 1111-1159"]}
{"id": "C80", "title": "Planetocentric frame and impact radius", "statement": "xform_j2k_to_pcf is a rotation that takes the pole to the third axis and the line of sight into the half plane of the first and third axis; the impact radius is the least distance of the line of sight from the centre.", "quantifier": "all positions, lines of sight and poles", "why_tests_cant": "A reflection or a scaled frame gives radii of plausible size.", "anchors": ["rss_ringoccs/occgeo/calc_occ_geometry.py lines 201-255", "rss_ringoccs/occgeo/calc_occ_geometry.py lines 1161-1210"]}
{"id": "C81", "title": "Velocities of the ring intercept point", "statement": "The radial and azimuthal velocities are derivatives of the radius, and radius times the derivative of the longitude, at times between the neighbouring samples.", "quantifier": "all differentiable motions, all numbers of samples, all steps", "why_tests_cant": "The longitude passes 360 degrees only in some occultations, and only two samples are wrong.", "anchors": ["rss_ringoccs/occgeo/calc_occ_geometry.py lines 473-494"]}
{"id": "C82", "title": "A chord occultation is split at its least radius", "statement": "For radii that fall to a minimum and grow after it, get_chord_ind returns an index such that all radii before it fall and all from it on grow.", "quantifier": "all such lists of radii of any length, all steps", "why_tests_cant": "Depends on the order of the two radii next to the minimum.", "anchors": ["rss_ringoccs/occgeo/occgeo.py lines 597-625"]}
{"id": "C83", "title": "Direction of the occultation and removal of what is blocked", "statement": "get_profile_dir returns the direction of the part that is not blocked, removes the rows of a fully blocked ingress or egress from all arrays and no others, and never fails.", "quantifier": "all lists of radii and times, all sets of blocked times", "why_tests_cant": "Needs chord occultations with particular blocked intervals.", "anchors": ["rss_ringoccs/occgeo/occgeo.py lines 469-596"]}
{"id": "C84", "title": "Removal of blocked times, split of chord arrays", "statement": "remove_blocked removes exactly the rows at blocked times from all four arrays; split_chord_arr returns the free rows before and after the index, ingress and egress in the right order, losing none.", "quantifier": "all arrays of one length, all sets of blocked times, all indices", "why_tests_cant": "Membership is tested by equality of floating-point times that went through SPICE.", "anchors": ["rss_ringoccs/occgeo/calc_occ_geometry.py lines 900-1010"]}
{"id": "C85", "title": "Radii in SPICE's kernel pool", "statement": "Computing ring intercepts with a flat ellipsoid leaves the planet's radii as they were; the ionosphere and atmosphere times are those at which a planet 5000 km, respectively 500 km, larger hides the spacecraft.", "quantifier": "all kernels, times and geometries", "why_tests_cant": "The pool is global state; needs SPICE, and the wrong times look plausible.", "anchors": ["rss_ringoccs/occgeo/calc_occ_geometry.py lines 363-471", "rss_ringoccs/occgeo/calc_occ_geometry.py lines 1055-1109", "rss_ringoccs/occgeo/occgeo.py lines 272-273 and 363-372"]}
{"id": "C86", "title": "Radius of an eccentric edge", "statement": "rad_converge returns, after at most niter iterations, a radius between peri- and apoapse that is that of the orbit at the row of the profile closest to it, within the tolerance; the semimajor axis for circular edges.", "quantifier": "all profiles, orbits, tolerances and limits", "why_tests_cant": "Convergence depends on the profile; non-convergence is silent.", "anchors": ["rss_ringoccs/occgeo/calc_occ_geometry.py lines 707-795"]}
{"id": "C87", "title": "Free-space regions in radius", "statement": "find_gaps returns the edges of the known gaps that lie within the profile, all of them, each with inner < outer and in increasing order; get_freespace_km adds the regions inside 72000 km and outside the rings exactly if the profile covers them; all regions are within the profile and in order.", "quantifier": "all profiles", "why_tests_cant": "Depends on the orbital elements of 24 edges and all phases of the ellipses.", "anchors": ["rss_ringoccs/occgeo/calc_occ_geometry.py lines 630-705", "rss_ringoccs/occgeo/calc_occ_geometry.py lines 1012-1053", "tables/gap_orbital_elements.txt"]}
{"id": "C88", "title": "Free-space regions in time", "statement": "For every occultation get_freespace returns intervals of time in increasing order, each end being the time at which the line through the neighbouring free samples has the radius of the corresponding end of the region in km.", "quantifier": "all profiles of one direction and all chords, all blocked times", "why_tests_cant": "Needs chords with particular samples around the least radius.", "anchors": ["rss_ringoccs/occgeo/calc_occ_geometry.py lines 797-898", "rss_ringoccs/occgeo/occgeo.py lines 413-420 and 447-451"]}
{"id": "C89", "title": "Rows of a geometry object belong together", "statement": "From 2016 on the rows kept are those at which the line from the spacecraft to Earth meets the ring plane, and in each row impact radius and velocity belong to the time of the row.", "quantifier": "all positions, times and steps", "why_tests_cant": "Needs a late occultation with false intercepts at its beginning; the impact radius is only shifted.", "anchors": ["rss_ringoccs/occgeo/occgeo.py lines 222-269 and 349-355"]}
{"id": "C90", "title": "Radii of the resampled profile", "statement": "Resampling returns radii that start at the first multiple of the sampling (from an integer) inside the data, grow by the requested sampling (or by the next multiple of 0.025 km if the data are coarser), and stay inside the data; falling radii are reversed.", "quantifier": "all growing or falling lists of radii, signals, filters and requested samplings", "why_tests_cant": "Rounding of the sampling to 1 m and of the number of points shows only for particular samplings and lengths; tests use 0.25 km.", "anchors": ["rss_ringoccs/calibration/resample_IQ.py lines 14-154"]}
{"id": "C91", "title": "Resampling keeps signals that vary linearly", "statement": "A signal that is constant or linear in radius keeps its values at the radii of the result.", "quantifier": "all filters with even weights and sum 1, all evenly spaced radii, all linear signals", "why_tests_cant": "The deviation at the edges and the drift of the labels depend on the length of the data and the ratio of the samplings.", "anchors": ["rss_ringoccs/calibration/resample_IQ.py lines 80-154"]}
{"id": "C92", "title": "Times of the reduced samples", "statement": "The reduction of the rate gives each power the time of the sample in the middle of the filter.", "quantifier": "all numbers of samples, rates and signals", "why_tests_cant": "Right whenever the factor divides the number of samples less one, otherwise off by an amount that grows along the observation.", "anchors": ["rss_ringoccs/calibration/power_normalization.py lines 510-550"]}
{"id": "C93", "title": "Mask of free-space samples", "statement": "The mask marks exactly the samples inside a free-space region whose power is within 0.1 of the median of the region in units of the greatest power, for regions with median between 0.5 and 1.25; the regions of the caller are not changed.", "quantifier": "all times, powers and lists of regions", "why_tests_cant": "Which regions are dropped and what number is the greatest power depends on the number of regions; the change of the caller's list shows only at a second calibration.", "anchors": ["rss_ringoccs/calibration/power_normalization.py lines 247-324"]}
{"id": "C94", "title": "Fit of the power in free space", "statement": "The fit is the least-squares polynomial of the stated order through the marked samples, finds polynomial powers exactly, is never negative, and its chi squared is the mean square for its degrees of freedom.", "quantifier": "all times, powers, masks and orders, and every function that finds least squares", "why_tests_cant": "Needs data for which the first fit becomes negative.", "anchors": ["rss_ringoccs/calibration/power_normalization.py lines 326-363"]}
{"id": "C95", "title": "Raw samples within the geometry", "statement": "The samples used for a profile are those whose times lie within the times of the geometry, each with its own time.", "quantifier": "all growing lists of sample times and geometry times, and samples of any kind", "why_tests_cant": "Needs recordings that begin between two seconds or end after the geometry, and a comparison of every sample with its time.", "anchors": ["rss_ringoccs/calibration/dlp_class.py lines 128-136"]}
{"id": "C96", "title": "Radii of the profile range", "statement": "A profile has exactly the radii of the requested range.", "quantifier": "all growing lists of radii and all ranges", "why_tests_cant": "Depends on how the limits of the range lie between the samples.", "anchors": ["rss_ringoccs/calibration/dlp_class.py lines 150-177"]}
{"id": "C97", "title": "Columns of a profile belong together", "statement": "All columns of a row (time, velocity, angles, distances, frequency) are those of one place of the geometry, and the power is that of the signal in units of the free-space power at this place.", "quantifier": "all monotonic geometries, calibrations and resampled signals", "why_tests_cant": "A row shifted by one sample looks plausible; needs comparison of all columns with the geometry in every row.", "anchors": ["rss_ringoccs/calibration/dlp_class.py lines 179-197 and 257-365"]}
{"id": "C98", "title": "Velocity and direction of a profile", "statement": "All rows of an ingress profile have negative radial velocity, all rows of an egress profile positive.", "quantifier": "all profiles and directions", "why_tests_cant": "Needs profiles with rows of both signs, and ones with the wrong sign only.", "anchors": ["rss_ringoccs/calibration/dlp_class.py lines 288-337"]}
{"id": "C99", "title": "Optical depth and threshold", "statement": "The optical depth and the power of a row satisfy Beer's law for the opening angle; the threshold is the optical depth at which the power is half the confidence constant times the noise power in one resolution element; the noise is measured outside the signal and the rings.", "quantifier": "all opening angles, powers, velocities, noise powers and spacings; all spectrograms", "why_tests_cant": "Sign and factor of two are invisible without an independent formula; all northern observations look right.", "anchors": ["rss_ringoccs/calibration/dlp_class.py lines 198-203 and 365", "rss_ringoccs/calibration/calc_tau_thresh.py lines 56-128"]}
{"id": "C100", "title": "The two profiles of a chord", "statement": "A chord is divided into an ingress and an egress: rows of geometry, raw data and calibration earlier than one second before the turn, and rows from one second after it; the caller's data are left alone.", "quantifier": "all chords with growing times", "why_tests_cant": "Needs comparison of all arrays of three objects before and after, for chords of both shapes and for samples off the whole second.", "anchors": ["rss_ringoccs/calibration/dlp_class.py lines 400-561"]}
{"id": "C101", "title": "The rate of the light time", "statement": "The rate computed for a spacecraft and a station is the derivative, with respect to the time of reception, of the light time that solves the light time equation with the relativistic delay of the Sun; the factor of the delay is twice the mass parameter of the Sun over the cube of the speed of light.", "quantifier": "all differentiable motions of sender and receiver, all light times that solve the equation near the time of reception", "why_tests_cant": "The equation is implicit and the formula has eight terms; a sign error changes results by parts in a million, for which no test has a reference.", "anchors": ["rss_ringoccs/calibration/calc_f_sky_recon.py lines 23-30 and 127-180"]}
{"id": "C102", "title": "Sky frequency from clocks and light times", "statement": "The predicted frequency is the number of cycles per unit of the receiving station's own clock, for a signal generated by the spacecraft's clock or by the transmitting station's clock and turned around by the spacecraft; the clocks lose what general relativity says for the listed bodies; no pair of bands has the frequency 0.", "quantifier": "all clocks, light times and rates; all pairs of bands", "why_tests_cant": "Relativistic terms are far below the tolerance of any test, and pairs of bands that were never flown are never tested.", "anchors": ["rss_ringoccs/calibration/calc_f_sky_recon.py lines 32-53, 84-124 and 183-216"]}
{"id": "C103", "title": "Removing the frequency offset from the samples", "statement": "The correction changes only the phase of the samples, never their power; a signal whose frequency is the fitted offset becomes constant.", "quantifier": "all samples, all offsets, all spline routines that are exact for cubics", "why_tests_cant": "The remaining phase accumulates over an hour of samples; tests compare with the same sum.", "anchors": ["rss_ringoccs/calibration/calibration_class.py lines 192-245"]}
{"id": "C104", "title": "Frequency offsets from the spectrum of the samples", "statement": "One offset is measured for every window of ten seconds within the requested times, and it is the frequency of the signal in the window.", "quantifier": "all amplitudes, frequencies, phases, sampling rates and lengths", "why_tests_cant": "Holds for a continuum of frequencies and phases; the discrete transform and the window function interact, and short windows at the ends are rare.", "anchors": ["rss_ringoccs/calibration/calc_freq_offset.py lines 38-133"]}
{"id": "C105", "title": "Which frequency offsets are fitted", "statement": "A value is used exactly if it is in range, near the median and near both neighbours, and if one of its neighbours is used; values in the rings are not used; if less than five remain, all values in range outside of the B ring are used. No index leaves its array.", "quantifier": "all lists of offsets, all radii, all thresholds", "why_tests_cant": "The two passes change the mask while they read it, so that a result depends on all values; the ends are treated otherwise than the middle.", "anchors": ["rss_ringoccs/calibration/freq_offset_fit.py lines 184-355"]}
{"id": "C106", "title": "The order of the polynomial for the offset", "statement": "The order is the least one, from 1 to the maximum, that the next order does not improve by the F test; it never exceeds what the number of data can support; data on a polynomial are fitted with its order.", "quantifier": "all data, all routines of least squares", "why_tests_cant": "The F value is infinite or undefined for exact data, and the loop stops at the first order without improvement; tests have one data set.", "anchors": ["rss_ringoccs/calibration/freq_offset_fit.py lines 357-412"]}
{"id": "C107", "title": "Discontinuities of the frequency offset", "statement": "The second derivative is exact for parabolas; every mark is a strict maximum of it, leaves ten data to the next mark and to the ends, and lies outside of the B ring; a change of slope and a jump are found.", "quantifier": "all data, spacings, slopes and heights", "why_tests_cant": "A jump of any height gives two equal maxima; rounding decides whether a test finds it.", "anchors": ["rss_ringoccs/calibration/freq_offset_fit.py lines 414-495"]}
{"id": "C108", "title": "Fit of the frequency offset", "statement": "An offset that is a low polynomial in time is found exactly at all times, before and after 2011, whatever the mask and whatever marks are found; all marked data are used; every time belongs to a segment; the measure of the fit is not negative.", "quantifier": "all times, masks, radii, coefficients and years; all routines of least squares", "why_tests_cant": "Segments overlap and later ones overwrite earlier ones; whether every time is covered depends on the marks.", "anchors": ["rss_ringoccs/calibration/freq_offset_fit.py lines 498-596"]}
{"id": "C109", "title": "Event of a date", "statement": "The date of an event gives the number of its revolution, and the number and the direction of the event give its folder; a date on which no event happened gives the nearest event of the year.", "quantifier": "all years and days of the year; all rows of the table of events; all revolutions of the list of directories", "why_tests_cant": "The table has 84 rows and the answer depends on coincidences between years.", "anchors": ["rss_ringoccs/tools/history.py lines 20-115 and 146-199", "tables/RSSActivities_all_rings_only.txt", "tables/list_of_sroc_dir_all_events.txt"]}
{"id": "C110", "title": "Checks of the arguments in Python", "statement": "The checks of error_check.py accept exactly the methods, windows and regions of the library, with any case, blanks and quotation marks; lists are ordered; numbers are positive; angles are below a full turn.", "quantifier": "all texts, all lists of numbers including NaN, all numbers", "why_tests_cant": "The texts are infinitely many; the C library has its own lists that must agree.", "anchors": ["rss_ringoccs/tools/error_check.py", "src/tau/rss_ringoccs_tau_set_psi_type.c", "src/tau/rss_ringoccs_tau_set_window_type.c"]}
{"id": "C111", "title": "Spectrogram", "statement": "Stacking adds complete groups of columns and gives the time of their middle; rows stay with their frequencies; the sampling frequency is that of the data; the transform of high resolution ends and its segments fit into the data; the header names its values.", "quantifier": "all numbers of columns, sizes of groups, spectra, times and options", "why_tests_cant": "The last group is lost for multiples only; the sampling frequency is off by one part in the number of samples.", "anchors": ["rss_ringoccs/scatter/spectrogram.py lines 20-176"]}
{"id": "C112", "title": "Geometric elements of satellites", "statement": "The frequencies are those of the potential of the planet; elements that the loop leaves unchanged give the position and velocity that were put in, and conversely; circular orbits are found; the semi-major axis from the angular momentum is right without oblateness; angles of the result lie between 0 and 360 degrees; the modulo function gives a remainder.", "quantifier": "all planets (GM, radius, J2, J4, J6), positions and velocities, elements, angles and moduli", "why_tests_cant": "Frequencies must agree with derivatives of a potential for all radii, and elements with positions for all orbits.", "anchors": ["rss_ringoccs/tools/satellite_tools.py lines 20-110, 213-440"]}
{"id": "C113", "title": "Radial offset caused by Titan", "statement": "Away from the resonance the offset is that of a test particle; near it the offset is limited; whole turns make no difference; for long records, which are resampled, each sample gets its own offset.", "quantifier": "all longitudes, radii, least distances, numbers and times of samples", "why_tests_cant": "Resampled longitudes go wrong only where they pass 360 degrees.", "anchors": ["rss_ringoccs/tools/satellite_tools.py lines 511-565"]}
{"id": "C114", "title": "Names of output files", "statement": "An output file never replaces an older one; its number follows the greatest number of the type and the day; all files of a profile go to the same directory.", "quantifier": "all directories, types, days, endings, directions and revs", "why_tests_cant": "The number wraps after 9999 files of a day; suffixes with an underscore hide files from the count.", "anchors": ["rss_ringoccs/tools/write_output_files.py lines 93-221", "rss_ringoccs/tools/pds3_tau_series.py lines 901-906"]}
{"id": "C115", "title": "Tables and their labels", "statement": "Every line of a table has as many bytes as RECORD_BYTES of its label; column j occupies BYTES bytes from START_BYTE, shows its number with six decimals (or in exponent form) and is followed by a comma or by the end of the line; NAME and UNIT of column j are those of what is written there.", "quantifier": "all seven kinds of files, all numbers; exact condition on each number for the width of its column", "why_tests_cant": "A test sees files of ordinary numbers; the format, the list of values and the label are three separate texts, and files of profiles with uplink are never made in tests.", "anchors": ["rss_ringoccs/tools/pds3_geo_series.py lines 35-98, 126-157, 437-464", "rss_ringoccs/tools/pds3_cal_series.py lines 33-41, 76, 401-410", "rss_ringoccs/tools/pds3_dlp_series.py lines 46-92, 127-135, 531-548", "rss_ringoccs/tools/pds3_tau_series.py lines 39-99, 142-150, 591-608", "rss_ringoccs/tools/pds3_write_series_v2.py lines 387-404"]}
{"id": "C116", "title": "Values in labels", "statement": "START_TIME and STOP_TIME of a label are the time of the day and the date of the first and the last sample, to the second, start before stop; the sampling interval is that of the data; the direction is that in which the radius changes; the least and the greatest radius are those of the data, to 5 cm.", "quantifier": "all times, rounding of every operation to 53 bits, all lists of radii", "why_tests_cant": "Half of all whole seconds of a day are shown one second early because of rounding; times before midnight and data of changing interval do not occur in a test file.", "anchors": ["rss_ringoccs/tools/pds3_write_series_v2.py lines 370-384, 410-435", "rss_ringoccs/tools/pds3_dlp_series.py lines 158-166, 184-189, 214-217"]}
{"id": "C117", "title": "Text of labels", "statement": "A label can be read: every statement of the header gives its name and value back; kernels and arguments of a history are listed in their order, separated by commas, within braces; quotation marks come in pairs.", "quantifier": "all labels whose texts are balanced, all lists of kernels, all lists of arguments", "why_tests_cant": "A label is compared with nothing in the repository; the missing brace depends on the number of the arguments, their length and commas in them.", "anchors": ["rss_ringoccs/tools/pds3_write_series_v2.py lines 13-361", "rss_ringoccs/tools/pds3_tau_series.py lines 789-801"]}
{"id": "C118", "title": "Python CSV objects keep the memory of their arrays exactly as long as needed", "statement": "An object of ExtractCSVData, GetUranusData or GetMergedCSVData takes over the arrays of the C structure: every array attribute is a numpy array with one reference over its own live block, or None exactly if the C pointer is NULL. When the object goes, the block of every array to which the program holds no further reference is released once, the others stay alive, and every other block is as before; if __init__ fails, an exception is set and no memory is lost. (False as it stands: the C structure itself and one reference to the history dictionary are lost each time; a second __init__ loses all old arrays; if a capsule cannot be made, success is reported with an exception set; without file names fopen gets a null pointer.)", "quantifier": "All heaps and sets of Python objects, all patterns of failing allocations, all files, all numbers of further references to each attribute", "why_tests_cant": "The leaks and the double releases depend on reference counts and on which allocation fails; no test exercises failing allocations, and a leak shows in no result.", "anchors": ["rss_ringoccs/crssringoccs/extract_csv_data/crssringoccs_extract_csv_data_init.c:93-161", "rss_ringoccs/crssringoccs/common/crssringoccs_set_var.c:40-91", "rss_ringoccs/crssringoccs/py_csv_obj/crssringoccs_py_csv_obj_destroy.c:21-48", "src/csv_tools/rss_ringoccs_merged_csv_data_extract.c:40-92"]}
{"id": "C119", "title": "DiffractionCorrection objects own their arrays and give everything back", "statement": "The constructor of DiffractionCorrection, from a finished reconstruction on, gives every array of the C tau object to exactly one attribute (a numpy array with one reference over its own live block), None exactly for NULL pointers, and releases the two C structures and nothing else. When the object goes, every array to which the program holds no further reference is released with its memory, once; no dictionary and no array of the input keeps a reference. If the reconstruction failed, all memory is given back and an exception is set.", "quantifier": "All heaps, all sets of arrays present, all reference counts, all numbers of further references to each attribute, all data and failure patterns of the reconstruction", "why_tests_cant": "A missing line in the destructor and references that are not given back change no result; they only show as memory that grows with every reconstruction.", "anchors": ["rss_ringoccs/crssringoccs/diffraction_correction/crssringoccs_diffraction_correction_init.c:254-332", "rss_ringoccs/crssringoccs/diffraction_correction/crssringoccs_diffraction_correction_destroy.c:22-49", "rss_ringoccs/crssringoccs/auxiliary/crssringoccs_c_tau_to_py_tau.c:43-97", "rss_ringoccs/crssringoccs/auxiliary/crssringoccs_extract_data.c:38-155"]}
{"id": "C120", "title": "Fit of a ring feature: limits, flags, times and radial velocity", "statement": "ring_fit looks for the feature within the caller's limits, or within 50 km of the guess if those limits do not contain it; the first guess lies within the bounds of the fit; every accepted name is fitted. Flag 1 means fewer data than parameters, 2 a feature smaller than the residuals, 3 a centre uncertain by more than 1 km, 0 none of these. The times and the longitude of the feature lie on the polygon of the data, for egress and ingress; the radial velocity is that between the two samples around the feature; the time of the day has hour < 24, minute < 60, second < 60 and is right to half of its last digit.", "quantifier": "All guesses, limits, names, rows, results of the fit, centres, radii that rise or fall, and all times", "why_tests_cant": "np.interp gives no error for falling radii, and indices of the shortened arrays are valid indices of the full ones; every result is a plausible number.", "anchors": ["rss_ringoccs/tools/ring_fit.py:100-287", "rss_ringoccs/tools/ring_fit.py:308-335"]}
{"id": "C121", "title": "The profiles of a ring feature have the stated centre, shape and amplitude", "statement": "The logistic edge is half way at x0, symmetric, lies between c and c+L and approaches both; the Gaussian and the Lorentzian are symmetric, greatest at x0 and have the area L above c; all are numbers for all parameters within the bounds of the fit; the amplitude used to decide whether a feature was detected is the height of the profile.", "quantifier": "All radii and all parameters (real numbers)", "why_tests_cant": "The area is an integral over all radii; a wrong factor is taken up by the fitted amplitude and shows in no residual.", "anchors": ["rss_ringoccs/tools/ring_fit.py:340-359", "rss_ringoccs/tools/ring_fit.py:142-156", "rss_ringoccs/tools/ring_fit.py:229"]}
{"id": "C122", "title": "What is known about an occultation is recovered from its DLP file", "statement": "Let a DLP file and its label have been written for an occultation. The description that `get_rev_info_from_dlp` finds from the name and the label is the description they were written from: year, day, band, receiving station, number of the revolution, raw file, direction of the occultation and of the profile, flag. So file names built from it are those built from the raw data, and the history taken from the label is the part from the line `rsr_inst history:` to the closing quotation mark.", "quantifier": "all occultations of the mission (years, days, stations, revolutions, bands, directions), all output paths, all values in the label, all labels as lists of lines", "why_tests_cant": "A test needs files for one path and one year; the failures depend on the path of the output (`Rev` or `TAB` in it), on the year (after 2010) and on which of two descriptions a label is written from.", "anchors": ["rss_ringoccs/tools/pds3_tau_series.py:922-1003", "rss_ringoccs/tools/pds3_tau_series.py:844-855", "rss_ringoccs/tools/write_output_files.py:136-164", "rss_ringoccs/tools/pds3_dlp_series.py:176"]}
{"id": "C123", "title": "Tables written by Python are read by the C library with the same values", "statement": "A GEO, CAL, DLP or TAU table that the Python writers make from an object is accepted by the C reader of its kind: the reader finds as many points as were written, puts every column into the member it belongs to, and each number differs from the written one by at most half a unit of the sixth decimal (for power, optical depth and threshold: of the seventh digit). The sky frequency that the library derives from the CAL table is the one the calibration object holds.", "quantifier": "all tables: every kind of file, every number of points, all values up to 10^30 (and not below 10^-300 unless zero), every rounding of the reader", "why_tests_cant": "Writer and reader are in different languages with their own lists of columns and formats; a test compares single values of one occultation, and the repository has no test that reads a written file. Occultations with uplink (after 2010) use formats that no test data has.", "anchors": ["rss_ringoccs/tools/pds3_geo_series.py:38-101", "rss_ringoccs/tools/pds3_cal_series.py:33-44", "rss_ringoccs/tools/pds3_dlp_series.py:44-95", "rss_ringoccs/tools/pds3_tau_series.py:36-103", "rss_ringoccs/calibration/calibration_class.py:155-160", "src/csv_tools/rss_ringoccs_csv_data_interpolate_cal.c:66-75"]}
{"id": "C124", "title": "Power, depth and phase in a TAU table describe the transmission", "statement": "The complex transmission at a point is recovered from the power and the phase in the TAU table, with the convention that the library uses for input profiles; the phase lies above -180 and up to 180 degrees; the power is recovered from the optical depth; the depth is negative exactly where the signal is stronger than the free signal, and infinite where there is none. With the digits of the table the transmission is recovered up to a millionth, and the logarithm of the power up to half a millionth of itself. The sign of the phase is that of the uncorrected profile.", "quantifier": "all complex transmissions, all elevations, all rounding errors within the digits of the table", "why_tests_cant": "A wrong sign of the phase or a missing absolute value is invisible in the power; a test would have to know the convention of the C library, and would cover single points.", "anchors": ["rss_ringoccs/tools/pds3_tau_series.py:79-103", "rss_ringoccs/tools/pds3_dlp_series.py:86", "rss_ringoccs/calibration/dlp_class.py:195-197", "src/tau/rss_ringoccs_tau_compute_data_from_dlp_members.c:95-97", "src/csv_tools/rss_ringoccs_csv_data_interpolate_tau.c:74-96"]}
{"id": "C125", "title": "A range reconstructed in pieces gives the table of the whole range", "statement": "subdivide_inversion_range cuts the inversion range into adjoining pieces from one end to the other, in at most as many pieces as there are processes, and ends for every positive piece length; the reconstructions of the pieces together keep each row of a reconstruction of the whole range exactly once, and merge_sorted_tabfiles puts them together in the order of the radii, in whatever order the files are found.", "quantifier": "all ranges and piece lengths, all numbers of processes, all profiles with ascending radii whose windows fit, all sets of tables that do not overlap and all orders of the directory", "why_tests_cant": "Whether a row at a limit is kept twice, once or not at all depends on where the limits fall among the radii, and on the row that the library drops at the end of every range; sets of files come in arbitrary order.", "anchors": ["rss_ringoccs/tools/rss_ringoccs_local_tools.py: subdivide_inversion_range, merge_sorted_tabfiles", "pipeline/batch_parallel_CSVtoTAU_template-20260130a.py: drange, task", "src/tau/rss_ringoccs_tau_get_window_width.c"]}
{"id": "C126", "title": "The names of files tell the resolution", "statement": "The type of a TAU file holds the requested resolution in metres and that of a DLP file twice the distance of its samples; min_valid_res_km finds the number again in the name of any path, is_res_km_valid accepts a resolution exactly if the DLP file is fine enough for it, and the batch program looks for the coarsest standard resolution that is fine enough.", "quantifier": "all resolutions, all roundings within half a unit of the last place, all paths and factors", "why_tests_cant": "Truncation of a product that is one unit in the last place too small happens for isolated values only (first at 1001 m), and the ends of the intervals of the choice are single numbers.", "anchors": ["rss_ringoccs/tools/write_output_files.py: write_output_files", "rss_ringoccs/tools/rss_ringoccs_local_tools.py: min_valid_res_km, is_res_km_valid, min_required_dlp_res_km", "rss_ringoccs/calibration/dlp_class.py line 147", "pipeline/batch_parallel_CSVtoTAU_template-20260130a.py lines 92-111"]}
{"id": "C127", "title": "Merged files get the next free version, and the label belongs to the table", "statement": "update_file_version gives the path with the smallest number, from its own on, that is not used yet, changes nothing else, ends in every directory and never names an existing file; the table and the label that merge_sorted_taufiles copies get the same number, and the label's pointer names the copied table.", "quantifier": "all directories, all path prefixes, all versions, all sets of existing files", "why_tests_cant": "What happens depends on which of many files already exist; a first run into an empty directory without the range in the name shows nothing.", "anchors": ["rss_ringoccs/tools/rss_ringoccs_local_tools.py: update_file_version lines 3739-3754, merge_sorted_taufiles lines 2238-2241, 2256, 2295-2301, 2318-2320"]}
{"id": "C128", "title": "A trimmed DLP file holds the rows of its range and can be told by its name", "statement": "trim_dlp_file writes exactly the rows of the DLP file whose radii lie in the processing range, in their order, with a label beside it that describes them, changes no other file, gives different names to different ranges, keeps the resolution in the name, and returns a file that holds the rows asked for also when it exists already.", "quantifier": "all tables, all ranges, all paths, all sets of existing files", "why_tests_cant": "Stale files, comments, directories with TAB in the name and ranges that differ by metres need states that a test in an empty directory does not have.", "anchors": ["rss_ringoccs/tools/rss_ringoccs_local_tools.py: trim_dlp_file lines 3705-3737"]}
{"id": "C129", "title": "Radius corrections are written into TAU files without touching anything else", "statement": "update_taufile_radius_corrections replaces the two columns of corrections in every line and leaves all others: the new file is the one that the writer would have written for the corrected rows; corrections that are there already stay if write_only_if_zero.", "quantifier": "all tables, all corrections, all earlier corrections", "why_tests_cant": "The slices of nine characters in a column of ten go wrong only for corrections below -10 km or above 100 km, or over older ones with ten characters.", "anchors": ["rss_ringoccs/tools/rss_ringoccs_local_tools.py: update_taufile_radius_corrections lines 3756-3803", "rss_ringoccs/tools/pds3_tau_series.py: write_tau_series_data"]}
{"id": "C130", "title": "The threshold optical depth follows signal-to-noise ratio, resolution and velocity", "statement": "compute_tau_threshold gives, when the ring-plane radius moves at a constant velocity v and the free-space power is constant, the threshold mu ln(SNR dR / (0.63624 |v|)) at every point for ingress as for egress, with SNR = 10^(dBHz/10) and dR the resolution times its factor. Multiplying the resolution by k adds mu ln k at every point. The scale of the free-space power has no influence, the tabulated ratio belongs to the largest power, and the branch for a negative velocity gives the same radii as the other one. Each point uses its own elevation angle.", "quantifier": "all profiles, all CAL tables of at least two (for the constant velocity three) points with distinct times, all positive powers, all resolutions, all ratios", "why_tests_cant": "Tests compare a threshold with a stored curve of one occultation; they do not vary resolution, direction and scale together, and the elevation of one occultation hardly changes.", "anchors": ["rss_ringoccs/tools/rss_ringoccs_local_tools.py:396-472"]}
{"id": "C131", "title": "A recording finds its own signal-to-noise ratio", "statement": "The name of the RSR file that the writer puts into a CAL label is read back from it, and get_dBHz_from_rsr_file returns for that name the number in the row of the table whose file has this name, whatever the case of the letters, or NaN if the table has no such row; directories, numbers and the header never match.", "quantifier": "all labels, all tables whose directories and numbers are shorter than the name, all names without slash and comma", "why_tests_cant": "The lookup tests for a substring of the whole line; that only the right row matches depends on the lengths of all names in the table and on the column at which the label is aligned.", "anchors": ["rss_ringoccs/tools/rss_ringoccs_local_tools.py:403-413", "rss_ringoccs/tools/rss_ringoccs_local_tools.py:1890-1907", "rss_ringoccs/tools/pds3_cal_series.py:118", "tables/snr0_rsr_all_files_before_USO_failure.csv"]}
{"id": "C132", "title": "Every occultation is processed with the kernels of its rev", "statement": "get_kernels_by_year_doy chooses for the date of every occultation the set of kernels made for its rev: the Rev123 set for rev 123, the Rev125 set for rev 125, the Rev133+ set from rev 133 (day 169 of 2010) on, and the common set before.", "quantifier": "all years and days, all events of the table", "why_tests_cant": "Checking one occultation per set shows nothing; the second occultation of rev 125 happened after midnight.", "anchors": ["rss_ringoccs/tools/rss_ringoccs_local_tools.py:1936-1961", "tables/RSSActivities_all_rings_only.txt"]}
{"id": "C133", "title": "The classes take exactly the arguments their callers give", "statement": "DiffractionCorrection and ExtractCSVData accept a call exactly if it has no unknown, doubled or superfluous argument and every value is of the right kind; the order of keywords does not matter; every variable gets the argument given under its own name, or else its documented default; a reconstruction never starts without a data product; and all calls and attribute uses in the package fit this interface.", "quantifier": "all lists of positional and keyword arguments, all values, all calls in tools, pipeline and examples", "why_tests_cant": "The format string, the list of names, the list of addresses and the defaults are four separate lists that must agree at every position; no test runs the scripts, and a wrong keyword shows only when its line is reached.", "anchors": ["rss_ringoccs/crssringoccs/diffraction_correction/crssringoccs_diffraction_correction_init.c:58-194", "rss_ringoccs/crssringoccs/diffraction_correction/crssringoccs_diffraction_correction_members.c:21-245", "rss_ringoccs/crssringoccs/extract_csv_data/crssringoccs_extract_csv_data_init.c:39-73", "rss_ringoccs/tools/compare.py:14-414", "rss_ringoccs/tools/advanced_tools.py:40-149"]}
{"id": "C134", "title": "The correction for the pole is the change of radius between the two poles", "statement": "radius_correction_pole and its variant for tau objects return for every point the radius under the fitted pole minus the radius under the pole of the kernels, at the time of that point; the fitted pole points where the fit says at the epoch of the fit; an unknown fit changes nothing; afterwards the kernel pool is as before; and the corrections reach the TAU file row by row.", "quantifier": "all profiles, times in either order, all limits NMAX, all poles, all radius functions, also failing ones", "why_tests_cant": "Profiles above and below NMAX points take different paths with different reference radii, and the state of the kernel pool after a failure shows only in later calls.", "anchors": ["rss_ringoccs/tools/rss_ringoccs_local_tools.py:2898-3042", "rss_ringoccs/tools/rss_ringoccs_local_tools.py:888-891", "rss_ringoccs/tools/rss_ringoccs_local_tools.py:1169-1174", "rss_ringoccs/tools/pds3_tau_series.py:79-103"]}
{"id": "C135", "title": "The correction for the trajectory is that of the fitted time shift and scale", "statement": "radius_correction_trajectory and its variant for tau objects return for every point its radial velocity times the fitted shift in time minus the fitted scale times its distance from 100000 km, with the last coefficients that the table of the fit gives for the occultation and station; the arrays are as long as the profile and the kernel pool is as before.", "quantifier": "all profiles, times in either order, all limits NMAX, all tables, all radius functions", "why_tests_cant": "The velocity comes from unequally spaced neighbours and from thinned points; the coefficients depend on the order of the lines of a table that is not part of the repository.", "anchors": ["rss_ringoccs/tools/rss_ringoccs_local_tools.py:3045-3205", "rss_ringoccs/tools/rss_ringoccs_local_tools.py:2041-2079"]}
{"id": "C136", "title": "The batch programs reconstruct the greatest range that has room for the windows", "statement": "update_inversion_range returns the greatest range of whole numbers within the request whose two ends lie between samples of the right side of the occultation that have their whole window within the radii of both files, and raises an exception when there is no such range; a second update changes nothing, a wider request is not answered with less; every sample in the range has room for its window, and the checks that follow accept the range.", "quantifier": "all requests, GEO and DLP files in any order, file names, resolutions and resolution factors", "why_tests_cant": "The interplay of outward and inward rounding, of the two files and of windows that vary with the radius shows only for particular radii; the library uses another width than the checks.", "anchors": ["pipeline/batch_parallel_CSVtoTAU_template-20260130a.py:13-77", "pipeline/batch_parallel_CSVtoTAU_template-20260130a.py:182-211", "src/tau/rss_ringoccs_tau_get_window_width.c:131-140"]}
{"id": "C137", "title": "The reader of the Voyager 2 recordings returns every sample with its time", "statement": "VGRUranusReader returns, for each direction, the bytes of the third converter of all files in order, less 128, and as many times, 50000 in a second from the start of the recording, growing throughout with the one missing second between the first two tapes of the egress; a file is read if and only if it is long enough; a wrong direction or missing file ends the program with a message.", "quantifier": "all files of any length and content, all record counts, all directions, all sample numbers", "why_tests_cant": "The files have 105 million bytes each and are not in the repository; an offset by one byte or one record shifts every sample without any error.", "anchors": ["rss_ringoccs/rsr_reader/vgr_uranus_reader.py:13-145"]}
{"id": "C138", "title": "The Uranus pipeline keeps times, frames, ranges, columns and phases consistent", "statement": "In the scripts of pipeline_uranus every decimated sample gets the time of its raw sample; each ring is computed in its own frame; the fitted offsets belong to their samples; the DLP file has room for the windows of all radii that are reconstructed; its columns are read as what they were written as, with the right angles in radians; and the steered phase is the phase of the signal minus the fit, up to full turns, within half a turn.", "quantifier": "all windows and samples of the egress, all rings, all resolutions and Fresnel scales, all phases, fits and corrections", "why_tests_cant": "The recordings and kernels are not in the repository, and a time off by a second or a frame of the neighbouring ring gives plausible profiles.", "anchors": ["pipeline/pipeline_uranus/geocal.py:42-143", "pipeline/pipeline_uranus/scatter.py:43-144", "pipeline/pipeline_uranus/dlp.py:19-124", "pipeline/pipeline_uranus/dlp.py:262-295", "pipeline/pipeline_uranus/reconstruction.py:18-88", "pipeline/pipeline_uranus/pipeline_params.py:29-53"]}
{"id": "C139", "title": "Reading only the header gives the same times and description as the reader", "statement": "rsr_header returns for every RSR file the times, day, year, station, sample rate and band that RSRReader finds in it, and raises the same exceptions.", "quantifier": "all files of any content and length, every rounding that satisfies the IEEE rules", "why_tests_cant": "The two functions compute the number of samples in different ways (a quotient truncated before or rounded after the product), which differs only for files that end within a block.", "anchors": ["rss_ringoccs/rsr_reader/rsr_header.py:118-178", "rss_ringoccs/rsr_reader/rsr_reader.py:230-330"]}
{"id": "C140", "title": "The Uranus geometry finds the right velocity and direction", "statement": "The radial velocity that occgeo_uranus computes is the central difference quotient of the radius with respect to time, and the direction of the profile is found from it: ingress for falling radii, egress for growing ones, and for a chord the side that the planet does not block, or both.", "quantifier": "all radii, times and blocked intervals", "why_tests_cant": "The step passed to the gradient is 1 whatever the distance of the times is, and the chord routines depend on which neighbour of the least radius is nearer; tests use one file with one sampling.", "anchors": ["rss_ringoccs/occgeo/occgeo_uranus.py:204-207", "rss_ringoccs/occgeo/occgeo_uranus.py:299-411"]}
{"id": "C141", "title": "Output files of the Uranus pipeline do not replace older ones", "statement": "construct_filepath of write_uranus_output_files chooses a sequence number with which the new file does not have the name of a file already in the directory.", "quantifier": "all directory listings, file types, dates and profile descriptions", "why_tests_cant": "os.listdir returns names in arbitrary order and the last selected name decides; tests on one file system see one order.", "anchors": ["rss_ringoccs/tools/write_uranus_output_files.py:54-115"]}
{"id": "C142", "title": "Every call passes what the function takes", "statement": "Every call in the repository of the readers, the geometry, calibration, profile, scattering, output and demonstration functions passes arguments that Python can bind to the parameters, and each parameter gets the value of its position or name, or its default.", "quantifier": "all values of the arguments, all 86 calls of 16 functions, and for the binding itself all signatures and calls", "why_tests_cant": "A call that cannot be bound fails only when its line is reached; the pipelines for Uranus and the demonstrations need data and kernels that no test has.", "anchors": ["pipeline/pipeline_uranus/geocal.py:108-111", "pipeline/pipeline_uranus/dlp.py:251-257", "pipeline/pipeline_uranus/scatter.py:192-195", "rss_ringoccs/tools/rss_ringoccs_local_tools.py:767-944", "rss_ringoccs/tools/rss_ringoccs_local_tools.py:1261", "rss_ringoccs/occgeo/occgeo.py:135-139", "rss_ringoccs/calibration/calc_tau_thresh.py:58-59"]}
{"id": "C143", "title": "The label of a merged table describes the merged table", "statement": "merge_sorted_tabfiles writes for the table merged from the pieces a label in which FILE_RECORDS and ROWS are the number of rows of all pieces, the minimum and maximum of ring radius, sampling parameter, ring longitude, observed ring azimuth and observed ring elevation are those of the merged columns, ^SERIES and PRODUCT_ID hold the name of the merged file, the start and stop times are those of the earliest and the latest row, the size of the table is FILE_RECORDS times RECORD_BYTES, and all other lines are those of the label of the first piece.", "quantifier": "all tables, all pieces with lines of any length, all pairs of labels and all line numbers", "why_tests_cant": "A label is only looked at when a reader trusts it; the wrong elevation, a start after the stop on the ingress side, hours above 23 and rows one byte shorter than RECORD_BYTES all give files that look right.", "anchors": ["rss_ringoccs/tools/rss_ringoccs_local_tools.py:2139-2262", "rss_ringoccs/tools/rss_ringoccs_local_tools.py:3634-3639"]}
{"id": "C144", "title": "For an event of the archive the data file of that event is chosen", "statement": "pick_RSR_file returns for a revolution, a direction and a station the first file of the list (1 kHz, otherwise 16 kHz) whose name has the station, the year, the day and the direction of the event in the table of CORSS_8001, for the egress of a chord occultation also the file of the ingress, and None when there is none; it never returns a file of another day or another station.", "quantifier": "all tables of files and events, all revolutions, stations and directions", "why_tests_cant": "The tables in the repository have some hundred events; a test of one event takes the first branch, while the exceptions and the fallbacks depend on several lines of three tables.", "anchors": ["rss_ringoccs/tools/rss_ringoccs_local_tools.py:1787-1868", "rss_ringoccs/tools/rss_ringoccs_local_tools.py:2651-2716"]}
{"id": "C145", "title": "The spacecraft kernel loaded for a TAU file covers the day of its event", "statement": "pick_SC_kernel returns for the path of an event the first kernel of the list whose first and last day enclose the day of the event, or raises an exception when there is none; get_rev_info_from_tau gives the revolution, band, date, station and direction that are in the path of a TAU file; load_kernels_for_taufile loads the kernel of the event of the TAU file.", "quantifier": "all lists of kernels, all tables of events, all paths of the form used by the package", "why_tests_cant": "A wrong kernel for a day gives positions from another trajectory segment or a SPICE error far away from the cause; which event is taken depends on substrings of all other paths in the table.", "anchors": ["rss_ringoccs/tools/rss_ringoccs_local_tools.py:1675-1677", "rss_ringoccs/tools/rss_ringoccs_local_tools.py:2007-2032", "rss_ringoccs/tools/rss_ringoccs_local_tools.py:2114-2137", "rss_ringoccs/tools/rss_ringoccs_local_tools.py:2618-2649"]}
{"id": "C146", "title": "The free-space regions that are typed are those that are used", "statement": "In the dialogue of the power normalization the regions typed as a list of lists are read with the values that were typed, whatever the form of the separator; the dialogue ends when the user agrees; the regions and the order returned are the last ones typed (without those that the mask refuses), and going back to the default gives the default regions.", "quantifier": "all texts of regions, all sequences of answers, all masks and all default regions", "why_tests_cant": "The dialogue waits for a person at the keyboard, so no test runs it; a lost digit gives a plausible fit with a region ten times shorter.", "anchors": ["rss_ringoccs/calibration/power_normalization.py:133-245"]}
{"id": "C147", "title": "The frequency offset is measured during the occultation", "statement": "The range of times in which the frequency offset is fitted is the one the caller asks for, otherwise it begins with the first and ends with the last sample between 65000 and 175000 km; the frequency of the oscillator has the ratio of its band, and other bands are refused.", "quantifier": "all limits, all days, all lists of times and radii, all letters of a band", "why_tests_cant": "The range depends on three nested conditions on the data; a test with one event takes one of them, and the wrong range only changes the quality of the fit.", "anchors": ["rss_ringoccs/calibration/freq_offset_fit.py:98-141"]}
{"id": "C148", "title": "The history of an object has every argument that its contents depend on", "statement": "Two objects (reader, geometry, calibration, diffraction-limited profile) whose histories agree were made with the same arguments, apart from those that only matter for messages and files.", "quantifier": "all values of the arguments of the five constructors", "why_tests_cant": "A missing entry is not seen by any test of the results; only comparing two runs with different arguments and equal histories shows it.", "anchors": ["rss_ringoccs/tools/history.py:201-249", "rss_ringoccs/rsr_reader/rsr_reader.py:844-857", "rss_ringoccs/occgeo/occgeo.py:423-441", "rss_ringoccs/calibration/calibration_class.py:169-184", "rss_ringoccs/calibration/dlp_class.py:236-249", "rss_ringoccs/occgeo/occgeo_uranus.py:116-139"]}
{"id": "C149", "title": "Error messages fit their buffers, are freed when they were allocated, and name their function", "statement": "Every error message that is put together from the message of a failed table stays, with its terminating zero, inside its buffer of 1024 characters and ends with the message of the table; every message that the destroying functions free was allocated, and every allocated one is freed; every message names the function that set it.", "quantifier": "all 231 places where a message is set, all 25 places where one is put together, all messages of fewer than 843 characters", "why_tests_cant": "The messages appear only when an allocation or a file fails; tests of the library do not make these fail, and an overflow of one character shows nothing.", "anchors": ["src/csv_tools/rss_ringoccs_csv_data_extract_geo.c:50-59", "src/csv_tools/rss_ringoccs_csv_data_extract_tau.c:28-110", "src/csv_tools/rss_ringoccs_uranus_csv_data_extract_dlp.c:80-105", "src/tau/rss_ringoccs_tau_resize_half_window.c:63", "src/csv_tools/rss_ringoccs_tau_csv_extract.c:66-75", "rss_ringoccs/crssringoccs/auxiliary/crssringoccs_extract_data.c:60-155"]}
{"id": "C150", "title": "The message about an illegal string lists what is allowed", "statement": "A name of a region, a window or a method of reconstruction is accepted exactly when the message printed for an illegal one offers it (spaces and capital letters do not matter), with the limits, the window and the degree that the message describes.", "quantifier": "all strings, all objects without an error", "why_tests_cant": "The messages are texts that no test reads; a name added in one place and not the other is only seen by comparing all strings.", "anchors": ["src/tau/rss_ringoccs_tau_set_range_from_string.c:24-217", "src/tau/rss_ringoccs_tau_set_window_type.c:9-106", "src/tau/rss_ringoccs_tau_set_psi_type.c:25-442"]}
{"id": "C151", "title": "Importing the extension module keeps the reference counts balanced", "statement": "After a successful import of crssringoccs each of the four classes has one reference more, the module and its list __all__ have one each, and the list has exactly the names of the classes; after an import that fails anywhere all counts are as before and nothing of the module is left.", "quantifier": "all outcomes of the calls of the interpreter, all reference counts of the classes before", "why_tests_cant": "The calls fail only without memory, which no test arranges; a wrong count shows long after the import.", "anchors": ["rss_ringoccs/crssringoccs/crssringoccs.c:37-153"]}
{"id": "C152", "title": "The window chosen for a resolution has that resolution", "statement": "The window width that the C code takes for a resolution with the b-factor is the one for which the formulas (32) and (33) of Marouf, Tyler and Rosen, as written in the Python tools, give back that resolution; for every resolution above the limit alpha F^2 there is exactly one value of b, below it none; the estimate lies above the resolution of the window alone and above the limit of wide windows.", "quantifier": "all positive frequencies, deviations, velocities, Fresnel scales and resolutions, all effective widths of windows", "why_tests_cant": "The formulas are in two languages and meet only in papers; a test compares numbers of one event at a few digits.", "anchors": ["src/tau/rss_ringoccs_tau_get_window_width.c:103-125", "rss_ringoccs/tools/rss_ringoccs_local_tools.py:231-238", "rss_ringoccs/tools/rss_ringoccs_local_tools.py:755-765", "rss_ringoccs/tools/rss_ringoccs_local_tools.py:2384-2392"]}
{"id": "C154", "title": "The figure of the grid names every greatest radius once", "statement": "plot_dtau_grid draws a curve for each row of the grid in the colour of its greatest radius, each greatest radius is in the legend exactly once, each slope is written once beside its curve of the first radius, and every fiftieth point has a marker.", "quantifier": "all lists of radii and slopes, all lengths of a curve", "why_tests_cant": "A missing entry of a legend is not an error, and figures are not compared.", "anchors": ["rss_ringoccs/tools/dtau_partsize.py:205-267"]}
{"id": "C153", "title": "The grid of predicted differential optical depths", "statement": "calc_dtau_pred returns a row for each pair of greatest radius and slope and a column for each smallest radius; each value is (tau_K - tau_X)/tau_X or (tau_X - tau_S)/tau_X of the sizes between the two radii; the file has a heading and one line per value in the order of the loops with the same values; what is returned does not depend on whether it is written; bands with equal efficiencies give zero.", "quantifier": "all lists of slopes and radii, all efficiencies, wavelengths and weights of the integration rule", "why_tests_cant": "No test has PyMieScatt, and the order of three nested loops is only seen with lists of different lengths.", "anchors": ["rss_ringoccs/tools/dtau_partsize.py:48-202"]}
{"id": "C155", "title": "Modelled ringlets, gaps and impulses have the radii and values they are given", "statement": "The profile of ModelFromGEO for a ringlet has the opacity where the radius differs from the centre by at most half the width and one elsewhere, for a gap the reverse; both can be made whenever there is a radius on each side; an impulse is zero except at the first radius not below its own, where its integral is one.", "quantifier": "all rising radii, centres, widths and opacities", "why_tests_cant": "Off-by-one slices change one sample at an edge; the class cannot be run at present.", "anchors": ["rss_ringoccs/tools/advanced_tools.py:569-592", "rss_ringoccs/tools/advanced_tools.py:653-656"]}
{"id": "C156", "title": "Turning an event round keeps the columns of the geometry together", "statement": "After the direction of an event has been settled, radius, angle, opening, distance and absolute speed form the same lines as in the GEO file, in the same or all in the opposite order; an event with speeds of both signs is refused.", "quantifier": "all columns of equal length", "why_tests_cant": "A column left out of the reversal still has the right length and plausible values.", "anchors": ["rss_ringoccs/tools/advanced_tools.py:322-371"]}
{"id": "C157", "title": "Modelled edges and square waves have the radii and values they are given", "statement": "The profile of ModelFromGEO for a right (left) edge is one from the edge on (up to the edge) and the opacity elsewhere, and for a square wave it is one in the first half of each wave and zero in the second, at every sample and for every first radius.", "quantifier": "all rising radii, edges and opacities; all grids with a whole number of samples in half a wave", "why_tests_cant": "The wrong samples are the last one, the one at the edge, or in the last wave, where nobody looks.", "anchors": ["rss_ringoccs/tools/advanced_tools.py:605-645"]}
{"id": "C158", "title": "The forward model keeps the times with the radii, uses the given profile, names the event and can be made", "statement": "When an event is turned round the times and the longitude stay with their radii; the given profile is used at all radii within the range; the event is named from the file; and the classes of advanced_tools can be constructed.", "quantifier": "all columns, all ranges, all names of files, all arguments", "why_tests_cant": "The three classes fail with a NameError in the present state, so that no test reaches these lines; a repair of the names would expose them.", "anchors": ["rss_ringoccs/tools/advanced_tools.py:1-3", "rss_ringoccs/tools/advanced_tools.py:44", "rss_ringoccs/tools/advanced_tools.py:143-156", "rss_ringoccs/tools/advanced_tools.py:207", "rss_ringoccs/tools/advanced_tools.py:357-371", "rss_ringoccs/tools/advanced_tools.py:400-405", "rss_ringoccs/tools/advanced_tools.py:434-467"]}
{"id": "C159", "title": "The file of the grid has the documented name and the nodes reach every range", "statement": "The file of calc_dtau_pred has the documented name with three digits for each part of the refractive index, so that different indices have different files; the radii at which the efficiencies are computed reach over every range of the lists.", "quantifier": "all refractive indices with parts below ten, all lists of radii", "why_tests_cant": "The documented call writes a file whose name nobody compares.", "anchors": ["rss_ringoccs/tools/dtau_partsize.py:130-158"]}
{"id": "C160", "title": "The loop over stations processes every directory at the resolution asked for", "statement": "runloop processes, for every station of a run, every directory whose name contains the station, with a file of the resolution asked for when there is one, and warns whenever the range of the inversion is not within the file.", "quantifier": "all lists of stations and directories, all contents of the directories, all jobs, all ranges", "why_tests_cant": "The loop needs the data files of the mission and hours; a directory that is passed over leaves no trace.", "anchors": ["rss_ringoccs/tools/rss_ringoccs_local_tools.py:3252-3525"]}
{"id": "C161", "title": "What runloop returns is the work up to the first failure", "statement": "runloop returns exactly the pieces of work it would complete if none failed, in order, up to the first that fails; every piece returned was completed and no run, station or job after a failure is attempted.", "quantifier": "all runs, stations, directories, jobs, and all sets of failing pieces", "why_tests_cant": "Failures of the inversion depend on data; the interplay of three nested loops and the early return is not exercised.", "anchors": ["rss_ringoccs/tools/rss_ringoccs_local_tools.py:3261-3525"]}
{"id": "C162", "title": "The prior history is copied from the label exactly", "statement": "The history copied into an optical depth is exactly the lines of the label from the last line beginning with `rsr_inst history:` before the first line beginning with a quotation mark, up to that line; a label in which one of the two is missing ends in an exception.", "quantifier": "all labels", "why_tests_cant": "Labels of one version of the programme are at hand; others are not.", "anchors": ["rss_ringoccs/tools/rss_ringoccs_local_tools.py:3546-3557", "rss_ringoccs/tools/rss_ringoccs_local_tools.py:3596-3606"]}
{"id": "C163", "title": "The history of an optical depth is its own", "statement": "After set_tau_history every part of the history of the optical depth describes the optical depth, and the history of the DLP object is unchanged.", "quantifier": "all histories, whether or not os.getlogin succeeds", "why_tests_cant": "The objects share a dictionary, which is seen only when the other one is written afterwards; os.getlogin fails only without a terminal.", "anchors": ["rss_ringoccs/tools/rss_ringoccs_local_tools.py:3562-3589"]}
{"id": "C164", "title": "Files from the web: what is fetched and what is left", "statement": "get_files_from_web returns the local paths of the files asked for in order; changes nothing else; without force leaves every file that is there as it is; and every other file asked for is afterwards what the server sent, or as before when nothing was sent.", "quantifier": "all lists of files (with repetitions), all contents of disk and server, with and without force", "why_tests_cant": "Tests have no server; repeated names and partial answers are never tried.", "anchors": ["rss_ringoccs/tools/rss_ringoccs_local_tools.py:1909-1935"]}
{"id": "C165", "title": "Every path returned holds the file of the archive", "statement": "After get_files_from_web every path returned exists and holds the content of the archive.", "quantifier": "all lists of files, all answers of the server", "why_tests_cant": "The answer of a server cannot be enumerated by tests.", "anchors": ["rss_ringoccs/tools/rss_ringoccs_local_tools.py:1926-1934"]}
{"id": "C166", "title": "The type of the reconstruction is read from the label where it is written", "statement": "get_psitype of a label returns, in lower case, the psitype that the history in the label states, wherever it stands among the keywords, and the empty text when the label has none.", "quantifier": "all labels, all values without comma, all positions among the keywords", "why_tests_cant": "Only the labels of one version, with one order of keywords, are at hand.", "anchors": ["rss_ringoccs/tools/rss_ringoccs_local_tools.py:1996-2006", "rss_ringoccs/tools/pds3_write_series_v2.py:270-321"]}
{"id": "C167", "title": "A renamed summary has the new name only", "statement": "add_inversion_range_psitype_to_summary gives the summary the name with resolution, range and type; with replace the file under the old name is gone.", "quantifier": "all names with one SUMMARY_ and one .pdf, all ranges of natural numbers, all contents of the disk", "why_tests_cant": "The command fails silently: its output is captured and not looked at.", "anchors": ["rss_ringoccs/tools/rss_ringoccs_local_tools.py:189-219"]}
{"id": "C168", "title": "There is a curve for every combination of the models", "statement": "particle_size_models makes exactly one curve for each combination of refractive index, greatest radius and slope.", "quantifier": "all numbers of indices, radii and slopes", "why_tests_cant": "zip stops silently; the defaults have no more than two of each.", "anchors": ["rss_ringoccs/tools/rss_ringoccs_local_tools.py:2549-2619"]}
{"id": "C169", "title": "The programs of a parallel batch are the template with its keywords replaced", "statement": "In every program that the driver writes each keyword between dollars is replaced by its value and nothing else is changed, wherever and however often it stands in a line; no keyword is left in any line of the template; there is one program for each job, in order, and none is written over another.", "quantifier": "all values without a dollar, all lines made of known keywords and texts without a dollar (with a character that is in no keyword between two of them), all numbers of jobs", "why_tests_cant": "The replacements are made one after the other on text that already holds values; whether a value or the text between two keywords is taken for a keyword depends on the values.", "anchors": ["pipeline/construct_batch_parallel_CSVtoTAU_20260130.py:158-241", "pipeline/batch_parallel_CSVtoTAU_template-20260130a.py"]}
{"id": "C170", "title": "There is exactly one job for each profile of the archive that is asked for", "statement": "The driver of a parallel batch writes one job for each resolution and each file of the archive whose Rev, band and direction are asked for, except S band below 200 m, and no other jobs.", "quantifier": "all lists of files, Revs, bands, directions and resolutions", "why_tests_cant": "What a Rev with a single file does shows only with such an archive; the list at hand has four or eight files for each Rev.", "anchors": ["pipeline/construct_batch_parallel_CSVtoTAU_20260130.py:131-157", "rss_ringoccs/tools/rss_ringoccs_local_tools.py:1787-1829"]}
{"id": "C171", "title": "The DLP file that a job finds is of the resolution it looks for", "statement": "Among the DLP files of a directory the pattern of a batch job matches exactly those of the resolution looked for.", "quantifier": "all events, dates and resolutions up to 9999 m", "why_tests_cant": "Which files lie in the directory decides; the order of the search is arbitrary, so the wrong file may be taken only sometimes.", "anchors": ["pipeline/batch_parallel_CSVtoTAU_template-20260130a.py:98-115, 148, 158"]}
{"id": "C172", "title": "A batch job reconstructs the files of its station and direction", "statement": "A batch job uses the files and the range of the directory that belongs to its station and direction if they are found and pass the checks, and ends with an exception otherwise.", "quantifier": "all lists of directories, in any order, with any contents", "why_tests_cant": "The failure needs two directories for a station and direction, as for an occultation with two passes.", "anchors": ["pipeline/batch_parallel_CSVtoTAU_template-20260130a.py:32-43, 132-226, 232"]}
{"id": "C173", "title": "The GEO file read for the fit of an edge belongs to the TAU file", "statement": "edge_fit_batch reads the GEO file of the date and version of the TAU file, or, if there is none, the one of the version before, or of the day before for version 1.", "quantifier": "all events, dates, versions and contents of the directory", "why_tests_cant": "The first day of a month and versions from ten on are rare; the failure is a file that is not found, or an older one read without a word.", "anchors": ["pipeline/edge_fit_batch.py:60-69"]}
{"id": "C174", "title": "A batch goes on after a recording that fails and reports it", "statement": "The batch programs for whole occultations begin every recording of their list that is neither commented out nor skipped, once and in order, whatever fails; the error file has exactly one entry for every recording that failed, with its number and path; an interruption ends the batch and keeps what was done before.", "quantifier": "all lists of recordings, all choices of what is skipped, all patterns of failures and interruptions", "why_tests_cant": "There are as many patterns of failure as subsets of the list; a test shows one.", "anchors": ["pipeline/e2e_batch.py:12-112", "pipeline/e2e_batch_1km.py:52-183", "pipeline/e2e_batch_500m.py:53-151", "pipeline/e2e_batch_postUSO_1km.py:53-153", "pipeline/e2e_batch_1km_20260130.py:124-297", "pipeline/batch_parallel_raw_to_DLP_1kHz_to_50m_20260130.py:61-68"]}
{"id": "C175", "title": "The batch for diffraction-limited profiles goes on after a recording that fails", "statement": "dlp_batch.py begins every recording that is not skipped and reports every one that fails.", "quantifier": "all lists of recordings and all patterns of failures", "why_tests_cant": "The handler of exceptions runs only when something fails.", "anchors": ["pipeline/dlp_batch.py:18-66"]}
{"id": "C176", "title": "Every failure of a parallel batch leaves its report", "statement": "Every task of a parallel batch that fails leaves a file with its report.", "quantifier": "all programs, all sequences of failures, all times", "why_tests_cant": "Two processes must fail within the same second; most often that is when all fail for the same reason at the start.", "anchors": ["pipeline/batch_parallel_raw_to_DLP_1kHz_to_50m_20260130.py:151-160", "pipeline/batch_parallel_CSVtoTAU_template-20260130a.py:284-294"]}
{"id": "C177", "title": "The log of a parallel batch has every entry, in the order of its task", "statement": "However the tasks of a parallel batch are interleaved, the log has each entry of each task exactly once and nothing else, and the entries of a task are in the order in which it wrote them; they need not be together.", "quantifier": "all numbers of tasks, all entries, all interleavings of whole appends", "why_tests_cant": "The number of interleavings is exponential and a run shows one.", "anchors": ["pipeline/batch_parallel_raw_to_DLP_1kHz_to_50m_20260130.py:116-118, 127-141, 162-175"]}
{"id": "C178", "title": "The batch makes a profile for every spacing that can be reached", "statement": "The parallel batch makes the diffraction-limited profiles of a recording for every desired spacing that they can reach.", "quantifier": "all lists of desired spacings, all ways in which profiles reach them", "why_tests_cant": "Whether a spacing is reached depends on the velocity of each occultation, and on both halves of a chord.", "anchors": ["pipeline/batch_parallel_raw_to_DLP_1kHz_to_50m_20260130.py:53, 120-145"]}
{"id": "C179", "title": "The merged table of a parallel batch has the rows of every piece", "statement": "The table that a parallel batch merges has the rows of every piece of the range, or is not written.", "quantifier": "all numbers of tasks, all pieces with at least two rows that do not overlap, all patterns of failure", "why_tests_cant": "A task must fail in the middle of a run.", "anchors": ["pipeline/batch_parallel_CSVtoTAU_template-20260130a.py:237-294, 297-335", "rss_ringoccs/tools/rss_ringoccs_local_tools.py:2139-2162"]}
{"id": "C180", "title": "A parallel batch does not merge tables of an earlier run", "statement": "With clean set, the merged table does not depend on tables that an earlier run left in the temporary directory.", "quantifier": "all tables left, all results of the tasks", "why_tests_cant": "Needs a run that was broken off before its own cleaning, in a directory that was never cleaned.", "anchors": ["pipeline/batch_parallel_CSVtoTAU_template-20260130a.py:298-316"]}
{"id": "C181", "title": "The pieces of a run have one version", "statement": "The tables that the tasks of a parallel batch write for the pieces of one range have the same version in their names.", "quantifier": "all directories, all numbers of tasks, all orders of looking and writing", "why_tests_cant": "Depends on which task ends before another one begins to write.", "anchors": ["rss_ringoccs/tools/write_output_files.py:174-201, 240-255", "rss_ringoccs/tools/pds3_tau_series.py:901-906", "pipeline/batch_parallel_CSVtoTAU_template-20260130a.py:281-283"]}
{"id": "C182", "title": "Attributes of the Python objects have bytes of their own", "statement": "The attribute of a name is the member of the structure with that name; what is assigned to it is what is read afterwards, and no other attribute and no byte outside the member changes; the destructor gives back every object held by an attribute exactly once.", "quantifier": "all contents of the object, all attributes, all values, truth values of one or four bytes", "why_tests_cant": "A wrong offset in a table shows in one attribute that nobody assigns to, and a wrong width damages the bytes next to it.", "anchors": ["rss_ringoccs/crssringoccs/crssringoccs.h:42-108", "rss_ringoccs/crssringoccs/diffraction_correction/crssringoccs_diffraction_correction_members.c:21-247", "rss_ringoccs/crssringoccs/diffraction_correction/crssringoccs_diffraction_correction_destroy.c:22-49", "rss_ringoccs/crssringoccs/py_csv_obj/crssringoccs_py_csv_obj_members.c:21-298", "rss_ringoccs/crssringoccs/py_csv_obj/crssringoccs_py_csv_obj_destroy.c:21-48"]}
{"id": "C183", "title": "Flags given by keyword arrive in their own fields", "statement": "After a DiffractionCorrection is made, use_fwd, use_norm, verbose and bfac are what the caller gave, or the documented presets, and nothing else in the object was changed by reading them.", "quantifier": "all contents of the object, all choices of given flags, truth values of one or four bytes", "why_tests_cant": "Whether bytes next to a flag are overwritten depends on the size of a type in another library and on the order of the members.", "anchors": ["rss_ringoccs/crssringoccs/diffraction_correction/crssringoccs_diffraction_correction_init.c:104-153", "rss_ringoccs/crssringoccs/crssringoccs.h:42-79"]}
{"id": "C184", "title": "Everything stored in an object can be read from Python", "statement": "Every member of the structures of the Python objects can be read as an attribute.", "quantifier": "all contents of the objects, all members", "why_tests_cant": "The table of attributes is written by hand beside the structure.", "anchors": ["rss_ringoccs/crssringoccs/crssringoccs.h:42-108", "rss_ringoccs/crssringoccs/diffraction_correction/crssringoccs_diffraction_correction_members.c:21-247", "rss_ringoccs/crssringoccs/py_csv_obj/crssringoccs_py_csv_obj_members.c:21-298"]}
{"id": "C185", "title": "Every reference in a label is to a history of that label", "statement": "Where the history of an object in a label says `see history above` or `see history below`, the history of that name is in the label, and it is above exactly if it says so; every history given directly or as an argument of one given directly is shown.", "quantifier": "all trees of histories", "why_tests_cant": "Labels of the package's own objects have one shape of tree; other shapes occur with objects made by other programs.", "anchors": ["rss_ringoccs/tools/pds3_write_series_v2.py:107-161", "rss_ringoccs/tools/pds3_write_series_v2.py:240-325"]}
{"id": "C186", "title": "A reference in a label is to the history that was given", "statement": "The history that a label shows under the name of an argument is the history of that argument.", "quantifier": "all trees of histories", "why_tests_cant": "All objects of a test come from the same reader.", "anchors": ["rss_ringoccs/tools/pds3_write_series_v2.py:107-161", "rss_ringoccs/tools/pds3_write_series_v2.py:240-325", "rss_ringoccs/calibration/dlp_class.py:236-249"]}
{"id": "C187", "title": "Writing a label leaves the object as it is", "statement": "After its label is written the history of an object is what it was before, and the label shows exactly the arguments that were given.", "quantifier": "all trees of histories", "why_tests_cant": "The dictionary is changed only if an argument has arguments that the object does not have.", "anchors": ["rss_ringoccs/tools/pds3_write_series_v2.py:120-156", "rss_ringoccs/tools/pds3_dlp_series.py:424-456"]}
{"id": "C188", "title": "make_executable gives execution to exactly those who may read", "statement": "After make_executable the owner, the group or others may execute the file exactly if they might before or may read it; every other bit of the mode is unchanged, and a second call changes nothing.", "quantifier": "all modes of a file", "why_tests_cant": "A test uses one or two modes of the 4096.", "anchors": ["rss_ringoccs/tools/sys_tools.py:85-92"]}
{"id": "C189", "title": "shell_execute runs the program with the arguments given", "statement": "The shell that is given the joined line runs the program with exactly the elements of the list as its words.", "quantifier": "all lists of words", "why_tests_cant": "Tests use names without blanks.", "anchors": ["rss_ringoccs/tools/sys_tools.py:36-68"]}
{"id": "C190", "title": "Names with dates sort as the times do", "statement": "For two times of a clock the text of date_string of the first is less than that of the second exactly if the first time is earlier; equal texts have equal times.", "quantifier": "all pairs of times of a clock up to the year 9999", "why_tests_cant": "There are about 3e11 seconds, and a test tries a few.", "anchors": ["rss_ringoccs/tools/sys_tools.py:70-83"]}
{"id": "C191", "title": "Files of Voyager 1 are new and written for every object", "statement": "write_vgr1_saturn_output_files writes a file for a geometry and for a reconstruction, and its name is not that of an existing file.", "quantifier": "all bands, stations, days and lists of files", "why_tests_cant": "A test directory is empty, and Voyager data are not part of the tests.", "anchors": ["rss_ringoccs/tools/write_vgr1_saturn_output_files.py:29-53", "rss_ringoccs/tools/write_vgr1_saturn_output_files.py:56-118"]}
{"id": "C192", "title": "Renaming a piece adds the range and the type where they belong", "statement": "add_inversion_range_psitype makes the name with the range after the resolution and the type before the ending, each if asked for, in the same directory.", "quantifier": "all paths, endings, ranges and types", "why_tests_cant": "The scripts call it with the range always, and with paths of one form.", "anchors": ["rss_ringoccs/tools/rss_ringoccs_local_tools.py:170-188"]}
{"id": "C193", "title": "Every name that a function of the package reads is bound", "statement": "Whatever path a function of the package takes after its module has been imported, each name that it reads and that is not its own is a name of its module or of Python.", "quantifier": "all paths through all 376 functions of the 38 modules", "why_tests_cant": "A missing name raises an exception only when its line is reached; most of these lines need data and kernels that no test has.", "anchors": ["rss_ringoccs/tools/advanced_tools.py:7-183", "rss_ringoccs/tools/rss_ringoccs_local_tools.py:767-3700", "rss_ringoccs/tools/pds3_uranus_geo_series.py:109-720", "rss_ringoccs/tools/spm_to_et.py:15-60", "rss_ringoccs/scatter/spectrogram.py:5-60"]}
{"id": "C194", "title": "The package can be imported, whatever module is imported first", "statement": "A fresh interpreter that imports the package or any one of its modules succeeds exactly if a fixed list of things outside the package is there, all of which the stated requirements and Python provide; no cycle of imports makes a module ask another one for a name that it does not have yet.", "quantifier": "all choices of the module imported first, all sets of things that are there outside the package", "why_tests_cant": "A test imports the package once, in an environment that has everything; cycles fail or not depending on which module comes first.", "anchors": ["rss_ringoccs/__init__.py:93-98", "rss_ringoccs/tools/__init__.py:9-17", "rss_ringoccs/tools/write_output_files.py:16-25", "rss_ringoccs/tools/pds3_tau_series.py:12-19", "rss_ringoccs/tools/compare.py:1-7", "requirements.txt"]}
{"id": "C195", "title": "What the programs take from the package is there", "statement": "After `import rss_ringoccs` every attribute `rss.a.b` that a program of the package, the pipeline or the examples reads exists.", "quantifier": "all environments in which the package can be imported, all 76 kinds of reads", "why_tests_cant": "The attributes depend on the order of the imports (a function replaces the module of the same name), and a missing one shows only when its line is reached, mostly inside a `try` that goes on.", "anchors": ["rss_ringoccs/__init__.py:93-98", "rss_ringoccs/tools/__init__.py:9-17", "pipeline/e2e_batch.py:72-92", "examples/pipeline_examples/e2e_run.py:47-60", "examples/pipeline_examples/quick_look_example.py:32-43", "rss_ringoccs/tools/write_vgr1_saturn_output_files.py:47"]}
{"id": "C196", "title": "The newest batch reconstructs every profile of a recording", "statement": "With `e2e_batch_1km_20260130.py` each profile that a recording has is reconstructed, in the order ingress, egress; if files are wanted, its files and its summary are written.", "quantifier": "all combinations of profiles and of wanted files, all environments in which the package can be imported", "why_tests_cant": "It needs recordings with one and with two profiles, and the kernels.", "anchors": ["pipeline/e2e_batch_1km_20260130.py:207-277", "rss_ringoccs/tools/__init__.py:9-17"]}
{"id": "C197", "title": "The other programs reconstruct every profile of a recording", "statement": "With each of the six other end-to-end programs each profile that a recording has is reconstructed, in the order ingress, egress; if files are wanted, its files and its summary are written.", "quantifier": "all six programs, all combinations of profiles and of wanted files", "why_tests_cant": "Every failure is caught and only written to the error file.", "anchors": ["pipeline/e2e_batch.py:56-94", "pipeline/e2e_scattered.py:51-89", "pipeline/e2e_batch_postUSO_1km.py:97-135", "pipeline/e2e_batch_500m.py:97-133", "pipeline/e2e_batch_1km.py:117-165", "examples/pipeline_examples/e2e_run.py:46-61"]}
{"id": "C198", "title": "The equations from elements to a state, and the conversion back, agree", "statement": "The equations 2 to 7 in `geo_posi`, with the rates of the planet, give position and velocity of a body with these elements: the velocities are the derivatives of the coordinates along the motion.  One turn of the loop of `posi_geo` at such a state leaves the elements as they are, up to whole turns of the angles.", "quantifier": "all planets and all elements whose three rates are not 0 (for the way back: positive axis, eccentricity below 1 and not 0, inclination not 0)", "why_tests_cant": "`geo_posi` cannot be run at all, so no test compares the two conversions; a wrong sign in a term of second order changes the result by less than any tolerance that a test with rounded elements can use.", "anchors": ["rss_ringoccs/tools/satellite_tools.py:145-207", "rss_ringoccs/tools/satellite_tools.py:312-382"]}
{"id": "C199", "title": "`geo_posi` returns the state of a body with the given elements", "statement": "For each planet and each list of elements `geo_posi` returns the six numbers of position and velocity of a body with these elements.", "quantifier": "all planets with rates that are not 0, all elements", "why_tests_cant": "Nothing calls `geo_posi`.", "anchors": ["rss_ringoccs/tools/satellite_tools.py:114-210"]}
{"id": "C200", "title": "The reconstruction gets from memory what it would get from the profile", "statement": "`data_from_inst` turns a profile of the class into an object that has each of the 18 columns that the reconstruction takes, all as long as the profile; each holds the column of the profile with the same name, angles in degrees instead of radians.", "quantifier": "all profiles whose radius corrections are 0, as the class makes them, and whose threshold is a finite number everywhere", "why_tests_cant": "A column under a wrong name or in the wrong unit gives a smooth, plausible profile; the program that uses this route has no test.", "anchors": ["rss_ringoccs/tools/rss_ringoccs_local_tools.py:552-753", "rss_ringoccs/crssringoccs/auxiliary/crssringoccs_py_dlp_to_c_dlp.c:72-157", "rss_ringoccs/calibration/dlp_class.py:339-364", "pipeline/e2e_batch_1km_20260130.py:211-245"]}
{"id": "C201", "title": "The pages of the summary show the whole profile", "statement": "For a profile with at least one radius, the pages of optical depth with 1000 km per panel (radii ascending) and the zoomed pages with 200 km per panel (any order) show each radius in some panel; the panels follow each other without gap or overlap, four on a page, and no page is needless.", "quantifier": "all lists of radii that are not empty", "why_tests_cant": "A summary is looked at, not tested; a missing last page is seen only for profiles whose length is near a multiple of a page.", "anchors": ["rss_ringoccs/tools/create_summary_doc_v5.py:1125-1167", "rss_ringoccs/tools/create_summary_doc_v5.py:1545-1627"]}
{"id": "C202", "title": "The figures of the summary document have the pages that their captions describe", "statement": "The figures of the document are the pages of the pdf in order, each with the caption for what it shows.", "quantifier": "all profiles that have a summary", "why_tests_cant": "The document is compiled outside and read by people; the figures are similar to each other.", "anchors": ["rss_ringoccs/tools/create_summary_doc_v5.py:1473-1497", "rss_ringoccs/tools/sys_tools.py:119-458"]}
{"id": "C203", "title": "The summary shows the phase and the depth of every radius", "statement": "The page of the phases shows each radius of the profile, and the pages with 1000 km per panel show each radius for ingress and egress.", "quantifier": "all radii of a profile, profiles in both orders", "why_tests_cant": "Profiles that are used in tests lie within the limits and ascend.", "anchors": ["rss_ringoccs/tools/create_summary_doc_v5.py:1411-1434", "rss_ringoccs/tools/create_summary_doc_v5.py:1125-1167"]}
{"id": "C204", "title": "In the view from Earth the rings are drawn as seen", "statement": "The matrix of the view keeps lengths; its first coordinate is the distance along the line of sight; the pole is drawn straight above or below the centre at the opening angle; each point of a ring is drawn on the projection of that ring under the opening angle, with the depth that hides the right half.", "quantifier": "all orientations of the planet, all directions to it (pole not in the plane of the sky's east-west direction), all radii and angles", "why_tests_cant": "A wrong sign of the position angle turns the picture slightly; nobody compares it with another ephemeris, and the code needs kernels to run.", "anchors": ["rss_ringoccs/tools/create_summary_doc_v5.py:177-188", "rss_ringoccs/tools/create_summary_doc_v5.py:219-246", "rss_ringoccs/tools/create_summary_doc_v5.py:271-297"]}
{"id": "C205", "title": "The track of the occultation is drawn over the rings that it crosses", "statement": "Each point of the track is drawn on the projection of the ring of its radius.", "quantifier": "all opening angles, all radii and longitudes", "why_tests_cant": "The track is near the right place for small opening angles; the picture has no scale.", "anchors": ["rss_ringoccs/tools/create_summary_doc_v5.py:365-366"]}
{"id": "C206", "title": "The blocked part of the track is drawn as blocked", "statement": "The points of the track that are drawn dashed are those whose times are in the list of ionospheric blocking.", "quantifier": "all lists of radii and times of the same length, all lists of blocked times", "why_tests_cant": "Test data have no point beyond 150000 km before the first one that is kept.", "anchors": ["rss_ringoccs/tools/create_summary_doc_v5.py:359-371"]}
{"id": "C207", "title": "The lines on the planet are drawn inside its outline", "statement": "Each point of a circle of latitude or a meridian is drawn inside the outline of the planet.", "quantifier": "all orientations of the planet, all directions to it, all radii, latitudes and longitudes", "why_tests_cant": "The difference is less than two percent of the radius for Saturn.", "anchors": ["rss_ringoccs/tools/create_summary_doc_v5.py:253-269", "rss_ringoccs/tools/create_summary_doc_v5.py:306-347"]}
{"id": "C208", "title": "The fit of the free power for Uranus takes only free points", "statement": "In `normalize` a point that the fit takes is more than 16 km from the edges of every ring whose centre is inside the profile, has a power of at most 3000 and is not among the first or last 50 points; each point that is left out has one of these reasons, or is the sample next to an end of the region of a ring.", "quantifier": "all ascending lists of radii, all powers, all lists of rings", "why_tests_cant": "The script needs raw data of Voyager; a shift of the mask by one sample does not show in a fit of order 9.", "anchors": ["pipeline/pipeline_uranus/dlp.py:127-149"]}
{"id": "C209", "title": "The elevation is right up to the deflection of the vertical", "statement": "`calc_elevation_deg` gives the elevation of the target above the plane at right angles to the line from the centre of the Earth, and differs from the elevation above the horizon by at most the angle between that line and the vertical.", "quantifier": "all positions of target and observer that are not 0, all verticals", "why_tests_cant": "A test compares with a stored value; near the horizon and near the zenith the formulas behave differently.", "anchors": ["rss_ringoccs/occgeo/calc_occ_geometry.py:157-199"]}
{"id": "C210", "title": "The elevation is the one above the horizon", "statement": "`calc_elevation_deg` gives, as its documentation says, the elevation of the target above the horizon of the observer.", "quantifier": "all positions of target and observer that are not 0, all verticals", "why_tests_cant": "The difference is at most 0.2 degrees on Earth.", "anchors": ["rss_ringoccs/occgeo/calc_occ_geometry.py:157-199"]}
{"id": "C211", "title": "The fit of the free power for Uranus takes no point near a ring", "statement": "In `normalize` no point within 16 km of the edges of a ring is taken for the fit.", "quantifier": "all ascending lists of radii, all powers, all lists of rings", "why_tests_cant": "Needs a profile that ends near a ring.", "anchors": ["pipeline/pipeline_uranus/dlp.py:127-149"]}
{"id": "C212", "title": "A spectrogram that was written is read back", "statement": "`read_spectro` gives back the radii and the normalised spectrogram that `Scatter` wrote, column by column, and as many times and frequencies as there were, beginning with the first ones.", "quantifier": "all spectrograms with at least one time and one frequency, all ways to write a number that `float` reads", "why_tests_cant": "Writer and reader are in different files and meet only in a file; no test writes and reads.", "anchors": ["rss_ringoccs/scatter/spectrogram.py:164-182", "rss_ringoccs/scatter/spectro_reader.py:3-22"]}
{"id": "C213", "title": "Times and frequencies of a spectrogram are read back", "statement": "The times and the frequencies that `read_spectro` returns are those of the spectrogram that was written.", "quantifier": "all spectrograms with evenly spaced times and frequencies", "why_tests_cant": "The error is less than one step, so plots look right.", "anchors": ["rss_ringoccs/scatter/spectrogram.py:164-182", "rss_ringoccs/scatter/spectro_reader.py:3-22"]}
{"id": "C214", "title": "The ratio of an event is that of its file", "statement": "`get_dBHz` gives the number in the first row that has the name of the file that is chosen for the event, `nan` if there is no such row, and an exception if no file is chosen.", "quantifier": "all events, tables, and files of ratios in which the names have no commas and the name of the file is only in rows of its own", "why_tests_cant": "It needs the tables and the choice of the file together; the rows are found by a search in the whole line.", "anchors": ["rss_ringoccs/tools/rss_ringoccs_local_tools.py:1870-1888", "rss_ringoccs/tools/rss_ringoccs_local_tools.py:2651-2716"]}
{"id": "C215", "title": "The ratio is that of the rate that is asked for", "statement": "`get_dBHz` gives the ratio of the file of 16 kHz or of 1 kHz, as its argument says.", "quantifier": "all events, tables and files of ratios, both rates", "why_tests_cant": "The ratios of both files are nearly the same.", "anchors": ["rss_ringoccs/tools/rss_ringoccs_local_tools.py:1870-1888", "rss_ringoccs/tools/rss_ringoccs_local_tools.py:2651-2716"]}
{"id": "C216", "title": "The kernels of all events are asked for", "statement": "`get_all_SC_kernels` asks for all spacecraft kernels of the list, in the order of the list, and for nothing else.", "quantifier": "all lists in which each line has at most one spacecraft kernel, with a name of 29 characters", "why_tests_cant": "It needs the web.", "anchors": ["rss_ringoccs/tools/rss_ringoccs_local_tools.py:1763-1778"]}
{"id": "C217", "title": "No kernel of a list is left out", "statement": "`get_all_SC_kernels` asks for all spacecraft kernels that the list names.", "quantifier": "all lists of kernels", "why_tests_cant": "The list in the repository has one kernel in each line.", "anchors": ["rss_ringoccs/tools/rss_ringoccs_local_tools.py:1763-1778"]}
{"id": "C218", "title": "The offset of the frequency is removed from the Uranus data", "statement": "`correct_IQ` of the Uranus pipeline keeps the power of each sample, and makes a signal constant whose frequency is the constant offset of the fit, up to the last point of its grid, at most 0.015 s before the last time.", "quantifier": "all times, signals and fits; for the second part all constant offsets and all rules of integration that are exact for constants", "why_tests_cant": "The pipeline needs the Voyager tapes; a wrong sign or factor shows only in the phase.", "anchors": ["pipeline/pipeline_uranus/geocal.py:20-39", "pipeline/pipeline_uranus/scatter.py:21-40"]}
{"id": "C219", "title": "The offset is removed up to the last time", "statement": "`correct_IQ` of the Uranus pipeline makes a signal constant whose frequency is the constant offset, for all times of the fit.", "quantifier": "all constant offsets and all times from the first to the last one", "why_tests_cant": "It concerns the last samples only.", "anchors": ["pipeline/pipeline_uranus/geocal.py:20-39", "pipeline/pipeline_uranus/scatter.py:21-40"]}
{"id": "C220", "title": "State and impact radius do not depend on the frame", "statement": "Whatever reference frame is asked for, `calc_sc_state` gives the components of position and velocity along the pole, distance, speed and the angle between them, and `calc_impact_radius_km` the least distance of the line of sight from the centre of the planet.", "quantifier": "all frames, positions, velocities, lines of sight and poles that are not the third axis of the frame", "why_tests_cant": "Saturn is always done in J2000, only Uranus in B1950; no test has kernels for either.", "anchors": ["rss_ringoccs/occgeo/calc_occ_geometry.py:534-555", "rss_ringoccs/occgeo/calc_occ_geometry.py:230-254", "rss_ringoccs/occgeo/calc_occ_geometry.py:1184-1210"]}
{"id": "C221", "title": "The first axis of the planet's frame is the line of sight", "statement": "In the frame of the state vectors the line of sight has no component along the second axis.", "quantifier": "all frames, lines of sight and poles", "why_tests_cant": "The frames J2000 and B1950 differ by less than a degree, and the lengths of the vectors are right.", "anchors": ["rss_ringoccs/occgeo/calc_occ_geometry.py:534-555", "rss_ringoccs/occgeo/calc_occ_geometry.py:230-254", "rss_ringoccs/occgeo/calc_occ_geometry.py:1184-1210"]}
{"id": "C222", "title": "The track in the view from above the pole", "statement": "In the view from above the pole every point of the track up to 150000 km, and nothing else, is drawn at its radius and at its longitude from the direction to Earth, which is drawn downwards; solid outside the equator of the planet and dashed inside it.", "quantifier": "all tracks with non-negative radii, all equatorial radii", "why_tests_cant": "The drawing is a page of a PDF; nobody compares its points with the geometry.", "anchors": ["rss_ringoccs/tools/create_summary_doc_v5.py:387-478"]}
{"id": "C223", "title": "Markers every half hour", "statement": "The markers on the track in the view from above the pole are at the times 0, 30 min, 60 min, ... after its first drawn point.", "quantifier": "all tracks with one point for every second", "why_tests_cant": "The markers look right on every track that is not interrupted by the planet.", "anchors": ["rss_ringoccs/tools/create_summary_doc_v5.py:387-478"]}
{"id": "C224", "title": "Mean optical depth of the bins of a feature", "statement": "`differential_opacity_plot` has one value for every step of the bin size below the upper end of a feature; it is the mean of the numbers less than half a bin from the middle of the bin and inside the feature, NaN when there is none; no sample counts in two bins.", "quantifier": "all files, features, bin sizes above 0 and adjustments of the edges", "why_tests_cant": "The function reads files of the archive and makes a plot; there is no test of it.", "anchors": ["rss_ringoccs/tools/rss_ringoccs_local_tools.py:1502-1580", "rss_ringoccs/tools/rss_ringoccs_local_tools.py:1694-1709"]}
{"id": "C225", "title": "The bands are compared bin by bin", "statement": "In each column of the tables of the bands K, X and S is the same bin of the file at the same place among those of the band, so that a difference is that of two optical depths of the same bin.", "quantifier": "all lists of files that fit into the tables", "why_tests_cant": "A value in the wrong column looks like any other optical depth.", "anchors": ["rss_ringoccs/tools/rss_ringoccs_local_tools.py:1502-1580", "rss_ringoccs/tools/rss_ringoccs_local_tools.py:1694-1709"]}
{"id": "C226", "title": "Every sample of a feature is in a bin", "statement": "Every radius inside a feature is in one of its bins.", "quantifier": "all features and bin sizes, edges not adjusted", "why_tests_cant": "The means hardly depend on the samples that are left out.", "anchors": ["rss_ringoccs/tools/rss_ringoccs_local_tools.py:1502-1580", "rss_ringoccs/tools/rss_ringoccs_local_tools.py:1694-1709"]}
{"id": "C227", "title": "Phases of a comparison", "statement": "`plot_comparisons` draws phases from -180 up to 180 degrees, all those of a result turned by the same angle; adjusted phases agree, at the first point from the lower end of the range on, with the phase of the archive at its first point from there on.", "quantifier": "all results, offsets, ranges and files of the archive", "why_tests_cant": "Phases that differ by a turn, or by a constant, look alike in a figure.", "anchors": ["rss_ringoccs/tools/rss_ringoccs_local_tools.py:2719-2872"]}
{"id": "C228", "title": "The offset of a curve", "statement": "The curve of result `i` has the offset `y_offset + i * dy_offset`.", "quantifier": "all results of optical depths, all offsets", "why_tests_cant": "The offset has no scale in the figure, and the curve of the archive has none.", "anchors": ["rss_ringoccs/tools/rss_ringoccs_local_tools.py:2719-2872"]}
{"id": "C229", "title": "All curves are inside the figure", "statement": "Unless the caller gives limits, all values of `plot_comparisons` are inside the limits of the figure.", "quantifier": "all lists of results", "why_tests_cant": "The curve that is cut off is still there; nobody measures the frame.", "anchors": ["rss_ringoccs/tools/rss_ringoccs_local_tools.py:2719-2872"]}
{"id": "C230", "title": "What the summary document takes from the name of its file", "statement": "From the name of the file of the figures `latex_summary_doc` recovers the number of the revolution, the letters of the direction, year, day and station, and it moves the document to the directory of that file.", "quantifier": "all names that `plot_summary_doc_v5` makes, all directories", "why_tests_cant": "The document is made by LaTeX at the end of the processing; nobody reads it in a test.", "anchors": ["rss_ringoccs/tools/sys_tools.py:94-151", "rss_ringoccs/tools/sys_tools.py:463-475", "rss_ringoccs/tools/create_summary_doc_v5.py:1463-1470"]}
{"id": "C231", "title": "The title of the summary document", "statement": "The first line of the title of the summary document is the name of the profile (`RSS_year_day_band+station_direction`).", "quantifier": "all names that `plot_summary_doc_v5` makes", "why_tests_cant": "It is right for every occultation with one direction.", "anchors": ["rss_ringoccs/tools/sys_tools.py:94-151", "rss_ringoccs/tools/sys_tools.py:463-475", "rss_ringoccs/tools/create_summary_doc_v5.py:1463-1470"]}
{"id": "C232", "title": "The page of the calibration", "statement": "The number in the label of the first axis is the whole number of MHz of the largest sky frequency, and added to the values of the axis it gives the frequencies; the fits of the frequency offset and of the power of free space are inside their limits.", "quantifier": "all calibrations without NaN, with non-negative frequencies and powers", "why_tests_cant": "It is a page of a PDF.", "anchors": ["rss_ringoccs/tools/create_summary_doc_v5.py:785-856"]}
{"id": "C233", "title": "The unit of the axis of the power", "statement": "A value of the axis of the power, times the unit in its label (2x10^9), is the power.", "quantifier": "all powers", "why_tests_cant": "The curve has the right shape, and nobody knows the power of free space by heart.", "anchors": ["rss_ringoccs/tools/create_summary_doc_v5.py:785-856"]}
{"id": "C234", "title": "The width of the smoothing", "statement": "For every number of points for which there is a width that SciPy accepts, the width of the smoothing in the summary document is accepted.", "quantifier": "all numbers of points, both widths", "why_tests_cant": "All profiles of the archive have thousands of points.", "anchors": ["rss_ringoccs/tools/create_summary_doc_v5.py:785-856", "rss_ringoccs/tools/create_summary_doc_v5.py:878-883", "rss_ringoccs/tools/create_summary_doc_v5.py:965-970"]}
{"id": "C235", "title": "Kernels for the longitude of Titan", "statement": "`calc_titan_longitude_ET` has the state of Titan whenever SPICE could have it, and the constants of Saturn, with the loaded kernels and the four of the function.", "quantifier": "all sets of loaded kernels, all ways in which SPICE depends on them that more kernels do not hurt", "why_tests_cant": "It depends on what the caller has loaded before.", "anchors": ["rss_ringoccs/tools/satellite_tools.py:446-509"]}
{"id": "C236", "title": "The longitude of Titan", "statement": "Both longitudes of Titan are from 0 up to 360 degrees; the mean one differs from that of the elements by whole turns, and the true one is that of the position.", "quantifier": "all positions and mean longitudes", "why_tests_cant": "There are no kernels in the tests.", "anchors": ["rss_ringoccs/tools/satellite_tools.py:446-509"]}
{"id": "C237", "title": "Scaling of the threshold from archived files", "statement": "In `compute_PDS_tau_threshold` the unit of the power does not matter, the signal-to-noise ratio at the largest power is the tabulated one in dB and elsewhere in proportion to the power, and a resolution or power `m` times larger raises the threshold by the sine of the elevation times `log m`.", "quantifier": "all nonempty lists of powers with a positive largest one, all positive resolutions, factors and powers, all nonzero radial velocities", "why_tests_cant": "The function reads files of the archive that are not in the repository.", "anchors": ["rss_ringoccs/tools/rss_ringoccs_local_tools.py:498-533"]}
{"id": "C238", "title": "Elevation in the threshold from archived files", "statement": "The threshold at every row is the normal optical depth for the elevation of the rings at that row.", "quantifier": "all lists of elevations and powers, all resolutions, factors and radial velocities", "why_tests_cant": "The elevation changes little in most of the archived occultations, so curves look the same.", "anchors": ["rss_ringoccs/tools/rss_ringoccs_local_tools.py:498-533"]}
{"id": "C239", "title": "The circle at the start of a chord", "statement": "On the page of the geometry of a chord occultation the circle is at one of the samples, and at the first sample within the bounds of the rings (70000 to 150000 km) if there is one.", "quantifier": "all lists of ring intercept radii with two samples at least", "why_tests_cant": "It is a mark in a figure; nobody compares it with the data.", "anchors": ["rss_ringoccs/tools/create_summary_doc_v5.py:567-587"]}
