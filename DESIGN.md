# Design of the formal model of rss_ringoccs

Everything here was written before the proofs; later additions are appended in
the section "Changes made while proving".

## 1. How the code is modelled

| C / Python concept | model | simplification |
|---|---|---|
| `double` | `Dbl = nan \| pinf \| ninf \| fin (q : Rat)` | signed zeros identified, sNaN/qNaN identified. Comparisons (`<`, `<=`, `==`, …) are the IEEE ones (all false on NaN). Negation and `fabs` exact. |
| rounded operations `+ - * /`, `sqrt`, … | record `Arith` of *arbitrary* functions `Dbl → Dbl → Dbl` | nothing is assumed about rounding unless a theorem lists a law as a hypothesis; the exact rational instance is used for witnesses |
| `(size_t)x` | `castSize : Dbl → Res Nat`; NaN, ≤ −1, ≥ 2^64 → undefined behaviour, otherwise truncation | |
| `size_t` | `Nat`; subtraction that would wrap is modelled explicitly (either UB of the following access or modular) at the places where it can be reached | counts are assumed < 2^64 |
| array pointer | `Option (List α)` (`none` = NULL); reading or writing past the list or through NULL is `Res.ub` | lists have the length of the allocation |
| undefined behaviour | the outcome `Res.ub reason`, distinct from every normal result | |
| `malloc`/`calloc`/`realloc` | oracle (list of booleans / a function) saying which allocation succeeds; fresh `malloc` memory holds an arbitrary `junk` value | |
| ownership (C15, C16, C43) | separate heap model: pointers are allocation numbers, `freed` list, double free and use after free are UB | |
| error handling | `err : Option Err` – one constructor per message site; flag and message are always set together in the source | text of messages not modelled |
| transforms (numeric claims) | the loops of the C code over `ℝ`/`ℂ` with the list accesses in `Res` | exact arithmetic: rounding error is **not** covered |
| trigonometric / special functions, libtmpl | parameters (arbitrary functions); where an algebraic law is needed it is a hypothesis. libtmpl is an empty git submodule in /repo, so nothing in it can be read | |
| OpenMP `parallel for` | any list of contiguous chunks covering the loop range, each chunk with its own private window state (this is what the code does: private buffers per thread, static schedule) | data races excluded by inspection: each iteration writes only its own T_out entry |
| strings | `List Char` (ASCII/byte view); "remove whitespace", "to lower" have concrete definitions documented as assumptions on libtmpl | |
| files | list of lines / list of characters; `fgets` with the 1024 byte buffer, `strtok`, `atof` (parameter) modelled | |
| Python objects | small inductive universe of the cases the wrapper distinguishes | |

Layout: `Verif/Base` (doubles, results), `Verif/Model/*` (transcription of the
code, each definition cites file and lines), `Verif/Spec/*` (independent
statements of what is wanted), `Verif/Proofs/*` (helper lemmas),
`Verif/Props/*` (the property theorems with non-vacuity examples).

## 2. Trusted base

* Lean 4.33.0 kernel, Mathlib 4.33.0 definitions (ℚ, ℝ, ℂ, Finset sums, …).
* Axioms: only `propext`, `Classical.choice`, `Quot.sound` (checked by
  `#print axioms`; no own axioms, no `sorry`, no `native_decide`).
* The transcription C → Lean was made by hand from the pinned source; each
  definition carries the lines it was read from.
* The libtmpl functions behave as stated in the comments of the definitions
  that stand for them (min/max of NaN-free arrays, Where_*, array reversal,
  string functions, counting lines and columns, interpolation).

Modelled: `src/tau/*`, `src/reconstruction/*`, `src/fresnel_transform/*`,
`src/csv_tools/*` (reading, extraction, ownership, chord check,
interpolation bookkeeping), `src/history/*`, `src/model/*`, the argument
handling of `rss_ringoccs/crssringoccs`.
Not modelled: libtmpl internals, floating-point rounding of the transforms,
message texts, printing, SPICE, plotting and PDS-label writing Python scripts,
`graveyard/`, build system.  (Raw RSR files were added later, see section 4.)

## 3. Plan per property

* **C01** every public function as `Tau → Res Tau`; theorem per function
  "error flag set ⇒ result is `ok` of the same state", then induction over any
  list of calls.
* **C02** API wrapper `Option Tau → Res (Option Tau)`; SimpleFFT has no guard:
  negation proved with the NULL witness, partial theorem for all others.
* **C03** model of init, malloc of members, copy, compute; theorem: result is
  never UB under well-formedness, and columns equal to the DLP's.
* **C04/C05** decision procedures vs. an independent predicate; iff for all values.
* **C06** expected false: defaults go to `requested_range`, `range` is [0,0];
  negation: every default tau with positive radii fails; partial: what has to be set.
* **C07/C08** occ-type function; C07 proved; C08 negation with a three-row
  witness, partial theorem for the fourteen columns that are reversed and for egress.
* **C09** loops with fuel-free recursion on the list; UB-freedom from
  shapes only; containment for sorted radii.
* **C10** off-by-one (`n + nw > arr_size`): negation with witness, partial
  theorem `n + nw ≤ arr_size`; with the right cut of Get_Window_Width the
  strict bound is recovered under a rounding law (partial).
* **C11** negation: last legal point is always dropped; partial: exactly one.
* **C12** non-bfac part proved, bfac part negated with a witness (index shift), partial for start = 0 and constant velocity / no skipped points.
* **C13** second call fails at keyword/window stage with `w` non-NULL.
* **C14** proved for sixteen arrays as `_partial`; negation for rx, ry, rz.
* **C15/C16** heap model. Members: proved. Destroy leaves dangling caller
  pointer: negation + partial. Resize: size-0 realloc gives double free:
  negation + partial.
* **C17–C19** string functions: iff over all strings.
* **C20** dispatch/tables, all strings.
* **C21** loop = symmetric Finset sum, by induction on the loop counter.
* **C22** linearity for each transform from the closed sum forms.
* **C23** free-space normalisation for each normalising transform.
* **C24** conjugation; negation for methods ignoring use_fwd.
* **C25** Horner loops for all orders; even: proved, odd: negations
  (`legendre_odd` drops a step, both odd versions mirror the odd part).
* **C26** table index arithmetic; OOB for order < 2 shown unreachable from parser.
* **C27** ring identity. **C28** exact rational residual matrices of the tables, bound lifted to all inputs.
* **C29/C30** index arithmetic by omega; C30 negated by a small window.
* **C31** negated; partial: sum over all but the last.
* **C32** negated by a drifting width; partial: constant widths, and any
  profile for one thread.
* **C33** Newton etc.: negated via stale window/off-by-one; partial with an
  added slack hypothesis. **C34/C35** Fresnel extra point, Legendre k: negation + partial.
* **C36** methods classified; negation for those that ignore flags.
* **C37** bounds negated (needs twice the checked margin), convolution identity proved over ℂ for the DFT.
* **C38** state machine of Reconstruction; success part proved, failure part negated.
* **C39** composition; egress case partial, ingress negated by C08.
* **C40** counts. **C41** round trip for well-formed files. **C42** negations: short row → UB, empty field → shifted columns, long line.
* **C43/C44** heap model of the extractors. **C45–C47** chord check, interpolation bookkeeping. **C48** real analysis identity. **C49/C50** readers.
* **C51** table lookup: bounds for all arguments; uniqueness false for one duplicated date. **C52** bounds; negated for full lists without terminator if applicable.
* **C53–C56** models. **C57–C59** wrappers. **C60** loop invariant.

## 4. Changes made while proving

**Log of wrong programs.** Thirteen attempts (R09, R20, R64-R72, V02, M09) were
first logged as caught although no theorem had failed: the build stopped without
an error in a theorem, or the edited file did not compile.  They are marked
`inconclusive`, and repeated under the same number with the letter r.

**Names in the manifest.** Until C135 was added the manifest listed the theorems
from C68 on with the prefix `Verif.` only, although most of them live in
sub-namespaces such as `Verif.Geo`: 372 of the names did not exist as written.
They are now looked up in the sources, and all of them were checked with Lean.

**Names.** The record called `Arith` above is `Num` in the code
(`Base/Num.lean`), `castSize` is `Dbl.toSize`.  Properties C63 and C67 were
dropped; the numbers are not reused.

**Added to the model.** Elliptical and perturbed Newton (C65), the heap behind
creation, reconstruction and destruction of tau objects (`Model/TauHeap.lean`,
C61, C62, C64), the constructor of the Python class (`Model/Py.lean`, C57–C59,
C66), the reader of raw RSR files (`Model/Rsr.lean`, C68–C73), and the Python
code for times, geometry, and diffraction-limited profiles (C74 and later).

**Additional trusted assumptions.**

* `Rsr.Ieee rnd`: Python floats are rationals followed by a rounding function
  with relative error ≤ 2⁻⁵³ that is exact on integers/2ᵏ below 2⁵³ and on
  doubles read from a file.  Overflow and underflow are left out.  `ieee_id`
  shows that the assumption is satisfiable.
* `DecimateLaw`: `scipy.signal.decimate` with factor q returns ⌈n/q⌉ samples.
* libtmpl's `Where` functions allocate three blocks (C62).
* SPICE's vector functions (`twovec`, `vsep`, `recrad`, `radrec`, `rotate`,
  `nplnpt`) do what their documentation says (`Model/GeoReal.lean`).
* For theorems about real or complex numbers: exact arithmetic.
* `scipy.signal.resample_poly` is the sum over a filter of 20q+1 weights with
  zeros beyond the data; the weights are even with sum 1 (`IsFilter`).
* The `while` loop of `pre_resample` is a function with fuel; the theorems say
  how much is enough.
* `np.polyfit` finds a polynomial with the least sum of squares
  (`LeastSquares`; `leastSquares_exists` shows that such a function exists).

**Properties that turned out false of the code.**  For each there is a theorem
whose name contains `_false` with a concrete witness, and a `_partial` theorem
with what does hold.

| id | what fails |
|---|---|
| C02 | the simple FFT driver dereferences a NULL object |
| C04 | some out-of-range parameters are accepted |
| C06 | defaults are never usable: `range` stays [0, 0] |
| C07 | NaN spacing passes |
| C08 | five columns are not reversed for ingress |
| C10, C11 | index check is off by one in both directions |
| C12 | with `bfac` the widths are shifted |
| C14 | `rx`, `ry`, `rz` are not cut |
| C15 | the caller's pointer dangles after Destroy |
| C16, C62 | `realloc` to size 0 followed by `free` |
| C24 | four methods ignore `use_fwd` |
| C25 | odd degrees |
| C29 | Newton4 with an empty window |
| C30–C35 | window off by one, stale windows, Fresnel and Legendre forward |
| C36 | some methods ignore flags |
| C37 | FFT needs twice the checked margin; hang on an empty range |
| C38, C39 | state after a failure; ingress files |
| C42 | short rows, empty fields, long lines |
| C43, C44 | double free, leak, NULL for Uranus files |
| C45, C46 | single row, all-NaN |
| C48 | B = 0, |B| > 180 |
| C49 | file with a header only |
| C51 | 2017/135 occurs twice in the table |
| C52 | full array, odd count |
| C53–C56 | edge equal to the last radius, empty arrays, … |
| C57–C59, C66 | overflow, list subclasses, no argument, missing `history` |
| C61, C64 | leaks |
| C65 | degrees used as radians |
| C69 | the sample −32768; 8-bit files |
| C71 | unsupported sample rates |
| C72 | half-sample boundary |
| C73 | tracking mode for year 0 |
| C74 | 60 s just before a full minute; century years; no `kernels` |
| C75, C76 | lists that pass midnight; reference day in the year before |
| C78 | angle in radians, documented in degrees |
| C81 | longitude passing 360° |
| C82 | index one too large, or an array of two |
| C83 | beyond 170000 km; gaps in the blocked times; egress first; late split |
| C84 | blocked times that changed through SPICE are not removed |
| C85 | atmosphere with radii 5500 km larger; flat ellipsoid left after a failure |
| C86 | silent non-convergence |
| C88 | chords that are split late |
| C89 | impact radius and velocity next to removed rows |
| C90, C91, C92 | samplings that are not multiples of 1 m, short profiles, edges, ratios of samplings that are not integers |
| C93 | the list of regions of the geometry is changed |
| C94 | a fit that is negative; `chi2` with the order before the change |
| C95 | the last sample; a geometry that begins between samples |
| C96 | one radius outside the range; data at the limits only |
| C97 | longitude passing 360° |
| C98 | profiles with the wrong sign only; both directions |
| C99 | negative opening angles; threshold for half the resolution; records shorter than 2000 s |
| C100 | chords that go outwards first; the caller's data are changed; samples off the whole second |
| C102 | turnaround ratios of S-K, K-S and K-X are 0 |
| C103 | offsets that change: a residual frequency remains |
| C104 | windows of three samples; a window after the requested end; tones between the fine frequencies are not covered |
| C105 | ends of the list and the third value; values in the rings |
| C106 | cubics with symmetric data get order 1 |
| C107 | jumps on a straight line; missing times |
| C108 | cubics; the first and last marked data after 2010; the sign of the measure of the fit |
| C109 | days of the year shared with another year; 2017 day 135 |
| C110 | `newton`; methods of the library that are refused; order 256; signs and underscores; NaN; unordered lists; 6.2832 |
| C111 | last group of a multiple; sampling frequency; high resolution; options; labels of the header |
| C112 | the modulo function for negative arguments |
| C113 | longitudes that pass 360 degrees in long records |
| C114 | after 9999 files; suffixes with `_`; directory of TAU files in revs 53-89 |
| C115 | profiles with uplink (TypeError); numbers too wide for their column; two names and units |
| C116 | whole seconds shown one second early; other days; start after stop for ingress; changing interval |
| C117 | A label without a history ends its description with one more quotation mark. The brace that opens the arguments of a history is not closed if there is only one and it is a history or longer than 40 characters (the path of the raw data), or if the last one is longer than 40 characters and has no comma. |
| C118 | The structure of C that `*_Extract` returns is never freed after its arrays were taken over, and the dictionary of the history has one reference too many: both are lost with every object. A second `__init__` overwrites the attributes without releasing them. If a capsule cannot be made, `__init__` returns 1 with an exception set. All arguments are optional for the parser, so a call without them gives `fopen` a null pointer. |
| C119 | The destructor has no line for `k_vals`, whose array stays for ever; the dictionaries `input_vars` and `input_kwds` are made with two references; the structure of the DLP object is not released when the reconstruction fails; each of the 18 arrays of the DLP object keeps two references (`tmp`, `arr`); a DLP object without `history` leads to `Py_INCREF(NULL)`. |
| C120 | `ring_fit.py`: limits without the guess raise a TypeError (numbers are joined as text) instead of the default limits; names such as `logistic_left` pass the check and fail with KeyError or UnboundLocalError; for residuals of 1 or more an undetected feature is flagged 3 or 0; five rows are refused for four parameters; `np.interp` on falling radii gives every ingress feature the times and the longitude of the last row; the indices of the radial velocity belong to the shortened arrays, so it is the mean since the first sample, NaN between the first two samples and a ValueError outside; a second of 60, hour 24 and day 366 occur |
| C121 | `ring_fit.py` 350-352: the area of the Lorentzian is L√π, not L (parenthesis); `k` is not bounded, negative values give NaN; line 229 takes L − c as the height of every profile |
| C122 | After 2010 the station of the uplink is missing in the description read back, so every output name is a `KeyError`. `Rev` in the output path gives a wrong revolution number, `TAB` hides the label. The name of the raw file is quoted in the description read back and not in that of the raw data, so labels differ. A label without `rsr_inst history:` before the closing quotation mark is an `UnboundLocalError`. |
| C123 | GEO and DLP tables with uplink columns are refused by the C readers (24 and 18 columns instead of 19/18 and 13/12). `rss_ringoccs_csv_data_interpolate_cal.c` 66-75 subtracts the offset from the sky frequency of the CAL table, in which `calibration_class.py` 157 has added it, so the frequencies of both routes differ by the offset. |
| C125 | A range reconstructed in pieces loses the row before each limit that is not itself the radius of a row (`C125_lost_false`), because every run drops its last row (C11). With whole kilometres as limits and a sampling that hits them nothing is lost, by luck. A piece with a single row stops the merging with an IndexError; a piece length of 0 never ends. |
| C126 | `int(x*1000)` truncates: 1.001 km is named `TAU_01000M`, like 1 km, and samples 1001 m apart are named `DLP_2001M`. Five digits are read as four (10 km as 1 km). With doubles `is_res_km_valid` refuses some resolutions that are exactly at the limit. Below 10 m the batch program takes a file of 10 m, and its pattern `DLP_*10M_` also finds 110 m. |
| C127 | The label that `merge_sorted_taufiles` writes keeps the pointer of the first name: after `add_inversion_range`, or when a version exists already, it names a file other than the table beside it (`C127_pointer_false`). A table without its label makes the copies differ in number. From version 10000 on `update_file_version` leaves old digits in the name. |
| C128 | `trim_dlp_file` uses row numbers of `np.loadtxt` as line numbers, so a comment shifts the rows. The name holds `int` of the limits and an existing file is not rewritten: limits that differ by metres return older rows (`C128_stale_false`). The label is an unchanged copy although rows are missing and lines now end with LF. `replace('TAB','LBL')` also changes directories. |
| C129 | The columns of corrections have ten characters, but nine are replaced: -10 km shifts the rest of the line (`C129_width_false`), and the sign of an older correction of ten characters stays (`C129_sign_false`). With `update_dr_pole=False` the function always fails, because the second assertion tests `dr_pole`. |
| C130 | `compute_tau_threshold` takes `mu` from the first row of the profile only (`BdegTAU[0]`): where the elevation differs the threshold is wrong by the ratio of the sines (`C130_elevation_false`). The branch for ingress reverses arrays that `interp1d` sorts anyway; it has no effect (`C130_branch`). |
| C131 | `get_dBHz_from_rsr_file` searches a substring of the whole line, so an empty name matches the header and ends in `ValueError`, and a part of a name takes the first row that contains it. The name is cut out of the label by column numbers; a label aligned elsewhere gives NaN. |
| C132 | `(year >= 2010) or (year==2010 and doy >= 169)` should be `year > 2010`: the second half never matters. The egress of rev 125 on day 27 of 2010 gets the kernels for rev 133 and later, its ingress on day 26 those for rev 125 (`C132_egress_false`). |
| C133 | All arguments in `|Od$OsppppdsdddO:` are optional, so `DiffractionCorrection()` is accepted and reads the uninitialised `DLPInst` (`C133_missing_false`). 21 calls use former keywords (`res_factor`, `fwd`, `norm`, `write_file`, and `verbose` for `ExtractCSVData`) and are always refused; several scripts use former attributes such as `power_vals`. The table of calls was compared with the parsed sources; the batch template, which is no valid Python before its placeholders are filled in, was read by eye. |
| C134 | Above NMAX points the reference is the radius of the file, below it the recomputed one, so the same profile gets different corrections (`C134_file_false`). The pole is restored without try/finally (`C134_restored_false`). `demo_e2e_event_loop` (1170, 1173) assigns the tuple of three arrays where `demo_e2e_event` (888) takes the first (`C134_tuple_false`). |
| C135 | The table of the ring fit is opened after the pole was replaced, so a missing table leaves the fitted pole in the kernel pool (`C135_table_false`); the two tables are not in the repository. An occultation that is not listed silently gets no correction. Not modelled: `update_taufile_radius_corrections` does not pass its fit number to the trajectory correction (3779). |
| C136 | `processing_window` lacks the factor `normeq` of the library, so ranges are accepted whose windows do not fit (`C136_library_false`; dividing the resolution factor by it would do, `C136_library_fits`). `is_processing_range_valid` rounds outwards what `update_inversion_range` did not, and refuses its result (`C136_refused_false`). Samples in the middle are not looked at (`C136_samples_false`). The wrong index in line 206 is harmless (`C136_dlp`). |
| C137 | The check for missing files increments `file` instead of `file_check`, and the message for a wrong direction uses the builtin `dir`: both raise TypeError (`C137_messages_false`). |
| C138 | `ringNames` has no lambda ring but `frames` has, so epsilon gets `URING_LAMBDA` (`C138_frame_false`). The windows of 1000 s in scatter.py span the second missing between the tapes; only alpha is corrected (`C138_scatter_false`), and there also before the gap (`C138_alpha_false`). |
| C139 | The number of blocks is not truncated, so the times of a broken last block are counted though RSRReader has no samples there (`C139_tail_false`); `np.int` no longer exists (`C139_numpy_false`). |
| C140 | The step of the gradient is the constant 1 (`C140_velocity_false`); symmetric chords and chords that end just after the least radius raise an exception (`C140_symmetric_false`, `C140_last_false`). |
| C141 | The number follows the last name listed, not the greatest (`C141_order_false`), and the type is searched anywhere in the name (`C141_prefix_false`). |
| C142 | Ten calls cannot be bound (`C142_calls_false`): signatures changed and the callers did not. |
| C143 | The label of a merged table: the elevation is read but its lines stay those of the first piece; the merged rows end with LF only, one byte less than RECORD_BYTES; START_TIME is after STOP_TIME when the rows run against the time; hours go on after midnight; lines beyond the length of the last piece's label are not edited; np.copy gives texts of fixed length, longer new lines are cut. |
| C144 | Choosing the data file: `rsr_file.index('CE')` raises ValueError for the egress of an occultation that is not a chord (Rev008 and Rev044 X63 at 16 kHz), so the fallback is never reached; an event that is not in the table gives ValueError/UnboundLocalError, one with two days in the table (Rev028 I) a TypeError, not None. |
| C145 | Kernels for a TAU file: load_kernels_for_taufile takes `[0]` of a text when the table has one line (ValueError), and the bare number `123` instead of `Rev123` also fits day 123 of 2005, whose kernel is then loaded; without a kernel `NO KERNEL FOUND` is returned as a path; `event_name_from_rev_info` gives RSS_123I_XDSS-43 for the station in the form of the reader. |
| C146 | Typed regions: `extract_list_from_str` cuts three characters before the next `[`, so `[[100,250],[300,412]]` is read as 100-25 and 300-412; answers are tested with `'n' in cont`; the default list is the same object that `create_mask` shortens. |
| C147 | Range of the frequency offset: fixed for 2008 day 39, the whole recording with fewer than three ring samples, and `fof_lims` with a distance of at most 100 s (or reversed) silently ignored. |
| C148 | Missing in the histories: apply_bias_correction (reader), local_path_to_tables (geometry), fof_lims (calibration), rev_info (Uranus); pnf_order is the order asked for, not the one used. |
| C149 | Messages: tau_resize_half_window allocates its message and no function frees it; in 16 files (among them tau_csv_extract, uranus_csv_data_extract_dlp, tau_model_sine_wave, tau_check_periapse, tau_set_window_type, get_py_range) a message names a function of another or an older name. |
| C150 | Message of tau_set_psi_type: it says `3 < n < 256`, while `fresnel2` and `fresnel3` are accepted. |
| C151 | Module initialisation: PyModule_AddObject takes over the reference, but later failures release the classes again and then the module releases them too; `Py_DECREF(module); Py_CLEAR(module)` releases the module twice; a failed import_array leaks the module. |
| C152 | b_MTR33: the effective width 1.65 is fixed (it is that of one window), and `band` is not used: with band='S' the default frequency is still that of the X band. |
| C159 | dtau_partsize.py: `elif len(mreal) == 1` should ask for mimag, and the zeros are appended instead of put in front; the documented example m178i000.csv is written as m178i0.csv, and imaginary parts 0.10 and 1.00 share a file. The nodes start at the first smallest radius, not at the least one. |
| C154 | plot_dtau_grid: for i = 0 `labels[i-1]` is the last label, so a single greatest radius (or a last one equal to the first) is missing in the legend. |
| C157 | advanced_tools.py: `[rstart:-1]` leaves the last sample of a right edge opaque, `[0:rfinsh]` the last free sample of a left edge; the loop over N-1 waves leaves out the last wave, and nstart = 0 displaces it when the first radius is in the opaque half. |
| C158 | advanced_tools.py: CSV_tools, special_functions and rss are not imported (NameError); for an ingress the times and phi_rl are not reversed with the radii; data_rho[rstart:rfinsh] loses the last sample; '"%s%"' is not a valid pattern, so rev_info is always Unknown. |
| C160 | runloop: `string` is reused for the name of the DLP file, so a second directory of a station is passed over; `dlp_res` keeps its fall-back value for later stations; the warning compares `inversion_range[0]` with both ends. |
| C163 | set_tau_history: `setattr(tau_inst,'history',dlp_inst.history)` shares the dictionary, so the DLP history is overwritten; os.getlogin() after two assignments leaves a mixed history without a terminal. |
| C165 | get_files_from_web: curl is called without -f and its status is not looked at; error pages are stored as data and never replaced; missing files are returned as if they were there. |
| C166 | get_psitype: only a comma is removed, so the last keyword is read as `full}` and the first as `keyword args      = {full`. |
| C167 | add_inversion_range_psitype_to_summary: `['rm','-f ',summarypdf]` passes an unknown option and removes nothing. |
| C168 | particle_size_models: `zip(m_vals,['o','s'],['-','--'])` and `zip(a_max_vals,['0.0','0.6'])` drop the third and later values without a word. |
| C170 | get_CORSS_8001_TABfiles returns a text instead of a list when one file matches; construct_batch_parallel_CSVtoTAU iterates over its characters and ends with an IndexError. |
| C171 | batch template: the patterns `DLP_*10M_`, `*20M_`, `*40M_`, `*50M_` match every resolution with the same last two digits. |
| C172 | batch template: the answer of the check is assigned to the name of the function that the check calls, so that a second directory always ends the job. |
| C173 | edge_fit_batch: the date before is date - 1 as a number and the version before is that of the last digit, so the first of a month and versions from 10 on look for files that do not exist or are much older. |
| C175 | dlp_batch.py: the handler was copied from diffrec_batch.py and uses dir and n, which are not variables of this program; the first failure ends the batch. |
| C176 | parallel batches: the names of error reports have a resolution of one second and no task number, so that reports of failures in the same second overwrite each other. |
| C178 | raw-to-DLP batch: dr_km_returned is that of the egress when there are both, so finer profiles of the ingress of a chord are not made when the egress cannot reach them. |
| C179 | CSVtoTAU batch: main() does not ask whether tasks failed, so a failed piece leaves a gap in the merged table, which is reported as done. |
| C180 | CSVtoTAU batch: cleaning before the run moves files to old/, which only cleaning after a run creates; without it the stale tables stay and are merged. |
| C181 | CSVtoTAU batch: the version is chosen before the suffix of the piece is added, so tasks that finish one after the other number their pieces 0001, 0002 and so on. |
| C183 | DiffractionCorrection passes pointers to tmpl_Bool where PyArg_ParseTupleAndKeywords stores a C int; with a tmpl_Bool of one byte, bfac=True clears use_fwd, use_norm and verbose, and use_fwd=False alone clears use_norm. C133 takes the size of an int; C183 states both. |
| C184 | DiffractionCorrection: k_vals, wtype and psitype are in the structure but not among the attributes, and k_vals is not given back by the destructor. |
| C185 | pds3_write_series_lbl: histories found among keyword arguments of arguments are stored in `Keyword Args` but write_history_text looks them up in `Positional Args` (KeyError); histories three deep are referred to as `below` and never written. |
| C186 | pds3_write_series_lbl: histories are identified by the names of arguments; a calibration made from another reading of the recording refers to the reader of the profile as `see history above`. |
| C187 | pds3_write_series_lbl adds the histories of arguments of arguments to the dictionary of the object itself; the label then shows arguments that the object was never given. |
| C189 | shell_execute joins the words with blanks and gives the line to a shell without quoting: `my file.pdf` becomes two arguments and an empty argument disappears. |
| C191 | write_vgr1_saturn_output_files tests for `rss.diffrec.DiffractionCorrection`, which does not exist (AttributeError for every object that is not a geometry); the sequence number is that of the last file in the order of os.listdir. |
| C192 | add_inversion_range_psitype with add_inversion_range false and add_psitype true uses a variable that was never set; `M_` is replaced in the whole path, also in names of directories. |
| C193 | A function reads only bound names: false for 35 reads in 15 functions, among them `os` in `write_uranus_geo_series` and in `spm_to_et` without kernels, `rss` in `advanced_tools.py` and `pbar` in `spectrogram.py` |
| C194 | Every module can be imported with the stated requirements: `tools/compare.py` never (no `diffrec`), `dtau_partsize.py` needs PyMieScatt, `rss_ringoccs_local_tools.py` needs wcmatch and the file of global paths, `satellite_tools.py` the latter |
| C195 | Attributes read from the package exist: false for `rss.diffrec.DiffractionCorrection`, `rss.tools.plot_summary_doc_v2`, `rss.tools.ExtractCSVData`, `rss.region_dict` and (unless the module has been imported) `rss.occgeo.occgeo_uranus`; both examples and five batch programs stop there |
| C197 | The other end-to-end programs reconstruct every profile: false, they use `plot_summary_doc_v2`, `diffrec`, `args` or the keyword `write_file`, which do not exist; two of them reconstruct the first profile, four none, and egress is lost whenever there is ingress |
| C199 | `geo_posi` returns a state: it never returns (`np.dpi` does not exist, the list of elements is nested, `cos` is not imported), and `sv[1:6]` would drop the vertical velocity |
| C202 | the figures of the summary document are its pages: the seventh figure has page 7, as the eighth, and the caption of the overview on page 6 |
| C203 | the summary shows every radius: the phases only from 72000 to 144000 km, and a profile whose radii descend only at its beginning |
| C205 | the track in the view from Earth: its horizontal coordinate is multiplied by cos B, so it is drawn inside the ring of its radius |
| C206 | the dashed part of the track: the times are taken by the index among the points that are kept, so an ingress from beyond 150000 km has the wrong part dashed |
| C207 | the lines on the planet in the view from Earth: drawn with the projected instead of the real polar radius, so some lie outside the outline |
| C210 | the elevation above the horizon: the line from the centre of the Earth is taken for the vertical of the station |
| C211 | the fit of the free power for Uranus: a ring whose centre lies just outside the profile is not masked |
| C213 | times and frequencies of a spectrogram file: the step is the range over the number of values, so that all but the first come back too small, the last by nearly one step |
| C215 | the ratio for the rate that is asked for: `get_dBHz` does not use `_16kHz`, it always takes the file of 16 kHz |
| C217 | all kernels that a list names: only the first of each line, and 29 characters of its name |
| C219 | removal of the offset at the last times: the grid of the integral ends 0.01 s before the last time, after it the phase is held |
| C221 | first axis of the planet's frame along the line of sight: `ref` is not passed on, in B1950 (Uranus) the axis is that of J2000 |
| C223 | markers every half hour in the view from above the pole: every 1800th drawn point is marked, points left out (behind the planet) do not count |
| C225 | bins of the bands in the same column: a bin without a number (`taui != np.nan` is always true) is taken for the end of the row, and the next file overwrites what follows |
| C226 | every sample of a feature in a bin: samples on the border of two bins are in neither, and the last half bin is left out |
| C228 | offset of the curves of a comparison: for results from a file `y_offset` is added twice |
| C229 | curves of a comparison inside the figure: the limits come from the last result only |
| C231 | title of the summary document: for chords it has `CI` or `CE` instead of the direction in the name of the profile |
| C233 | unit of the axis of the power: the values are multiplied by 2e-9 and not divided by 2e9, 4 times too large |
| C234 | width of the smoothing in the summary document: 3 for 5 points, which SciPy refuses, where 5 would do |
| C235 | kernels for the longitude of Titan: without a file of constants the function fails before it comes to loading one |
| C238 | elevation in the threshold from archived files: that of the first row is used for all rows |
| C239 | the circle at the start of a chord: only one bound of the rings is looked at, and the circle can be outside them |
