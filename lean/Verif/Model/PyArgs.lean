import Mathlib.Data.Rat.Defs
import Mathlib.Data.List.Basic

/-!
# Arguments of the Python classes

Simplifications: Python values are numbers (int or float), strings, Booleans and other objects; a number too large for a double, a string
with a null character and an object that defines `__float__` or `__bool__` do not occur.  The order of the checks in
`PyArg_ParseTupleAndKeywords` does not matter, since all of them end in `TypeError`.  The letter `p` stores a C `int`; the type `tmpl_Bool` of the
variables is defined in libtmpl, which is not part of the repository, and is taken to have the same width.
-/
namespace Verif.Args

/-- Python values. -/
inductive Val where
  | num (q : ℚ)
  | str (s : String)
  | bool (b : Bool)
  | obj (id : Nat)
  deriving DecidableEq, Repr

/-- The letters of the format strings: object, double, string, predicate. -/
inductive Kind where
  | O
  | d
  | s
  | p
  deriving DecidableEq, Repr

/-- What `PyArg_ParseTupleAndKeywords` stores for a value; `none` is `TypeError`. -/
def conv : Kind → Val → Option Val
  | .O, v => some v
  | .d, .num q => some (.num q)
  | .d, .bool b => some (.num (if b then 1 else 0))
  | .d, _ => none
  | .s, .str s => some (.str s)
  | .s, _ => none
  | .p, .num q => some (.bool (decide (q ≠ 0)))
  | .p, .str s => some (.bool (decide (s ≠ "")))
  | .p, .bool b => some (.bool b)
  | .p, .obj _ => some (.bool true)

/-- A list of keywords with the letters of the format; the first `nPos` may be positional (those before `$`); all are optional (they come
after `|`). -/
structure Sig where
  params : List (String × Kind)
  nPos : Nat

/-- A call: positional arguments and keyword arguments. -/
structure Call where
  pos : List Val
  kw : List (String × Val)

/-- The argument for parameter number `i` with name `name`: `none` if it is given twice. -/
def given (c : Call) (i : Nat) (name : String) : Option (Option Val) :=
  match c.pos[i]?, c.kw.lookup name with
  | some _, some _ => none
  | some v, none => some (some v)
  | none, w => some w

/-- The loop over the parameters: what is stored for each of them, `none` if it is not given. -/
def parseFrom (c : Call) : Nat → List (String × Kind) → Option (List (Option Val))
  | _, [] => some []
  | i, (name, kind) :: ps => do
    let g ← given c i name
    let r ← match g with
      | none => some none
      | some v => (conv kind v).map some
    let rs ← parseFrom c (i + 1) ps
    pure (r :: rs)

/-- `PyArg_ParseTupleAndKeywords`; `none` is `TypeError`. -/
def parseArgs (s : Sig) (c : Call) : Option (List (Option Val)) :=
  if s.params.length < c.pos.length + c.kw.length then none
  else if s.nPos < c.pos.length then none
  else if c.kw.any fun k => !(s.params.any fun p => p.1 == k.1) then none
  else parseFrom c 0 s.params

/-- rss_ringoccs/crssringoccs/diffraction_correction/crssringoccs_diffraction_correction_init.c 58-74 and the format in line 145. -/
def diffSig : Sig :=
  ⟨[("dlp", .O), ("resolution", .d), ("rng", .O), ("wtype", .s), ("use_fwd", .p), ("use_norm", .p), ("verbose", .p), ("bfac", .p),
    ("sigma", .d), ("psitype", .s), ("resolution_factor", .d), ("eccentricity", .d), ("periapse", .d), ("perturb", .O)], 2⟩

/-- The variables whose addresses are passed. -/
inductive Field where
  | DLPInst
  | input_resolution_km
  | rngreq
  | wtype
  | use_fwd
  | use_norm
  | verbose
  | bfac
  | sigma
  | psitype
  | resolution_factor
  | eccentricity
  | periapse
  | perturb
  deriving DecidableEq, Repr

/-- crssringoccs_diffraction_correction_init.c 146-152. -/
def addresses : List Field :=
  [.DLPInst, .input_resolution_km, .rngreq, .wtype, .use_fwd, .use_norm, .verbose, .bfac, .sigma, .psitype, .resolution_factor, .eccentricity,
    .periapse, .perturb]

/-- crssringoccs_diffraction_correction_init.c 77-126: the values before the call; `DLPInst` has none, `perturb` is a null pointer (here
object 0), and the memory of a new object is zero. -/
def initial : Field → Option Val
  | .DLPInst => none
  | .input_resolution_km => some (.num 0)
  | .rngreq => some (.str "all")
  | .wtype => some (.str "kbmd20")
  | .use_fwd => some (.bool false)
  | .use_norm => some (.bool true)
  | .verbose => some (.bool false)
  | .bfac => some (.bool true)
  | .sigma => some (.num (2 / 10 ^ 13))
  | .psitype => some (.str "fresnel4")
  | .resolution_factor => some (.num (3 / 4))
  | .eccentricity => some (.num 0)
  | .periapse => some (.num 0)
  | .perturb => some (.obj 0)

/-- The stored values go to the addresses in their order. -/
def store : List Field → List (Option Val) → (Field → Option Val) → Field → Option Val
  | f :: fs, some v :: vs, m => store fs vs (fun g => if g = f then some v else m g)
  | _ :: fs, none :: vs, m => store fs vs m
  | _, _, m => m

/-- What happens up to line 194: `TypeError`, use of a variable without a value, or the values with which the reconstruction starts. -/
inductive Started where
  | refused
  | undefined
  | with (m : Field → Option Val)

/-- crssringoccs_diffraction_correction_init.c 144-194. -/
def construct (c : Call) : Started :=
  match parseArgs diffSig c with
  | none => .refused
  | some vs =>
    let m := store addresses vs initial
    match m .DLPInst with
    | none => .undefined
    | some _ => .with m

/-- rss_ringoccs/crssringoccs/extract_csv_data/crssringoccs_extract_csv_data_init.c 39 and the format in line 66. -/
def csvSig : Sig := ⟨[("geo", .s), ("cal", .s), ("dlp", .s), ("use_deprecate", .p), ("tau", .s)], 3⟩

/-- The attributes of an object: the class has members, no methods, and no dictionary
(rss_ringoccs/crssringoccs/diffraction_correction/crssringoccs_diffraction_correction_class.c 20-32).
crssringoccs_diffraction_correction_members.c 21-245. -/
def members : List String :=
  ["rho_km_vals", "B_deg_vals", "D_km_vals", "rx_km_vals", "ry_km_vals", "rz_km_vals", "F_km_vals", "phi_deg_vals", "phi_rl_deg_vals", "T_in",
    "T_out", "T_fwd", "rho_corr_pole_km_vals", "rho_corr_timing_km_vals", "rho_dot_kms_vals", "t_oet_spm_vals", "t_ret_spm_vals",
    "t_set_spm_vals", "tau_threshold_vals", "w_km_vals", "outfiles", "input_vars", "input_kwds", "bfac", "verbose", "use_norm", "use_fwd",
    "eccentricity", "periapse", "input_resolution_km", "resolution_factor", "sigma"]

/-- The classes that are called. -/
inductive Cls where
  | diffraction
  | csv
  deriving DecidableEq, Repr

/-- A call in the package: class, file, line, number of positional arguments, keywords. -/
structure Site where
  cls : Cls
  file : String
  line : Nat
  nPos : Nat
  kws : List String
  deriving DecidableEq, Repr

/-- All calls of `DiffractionCorrection` and `ExtractCSVData` in rss_ringoccs/tools, pipeline and examples, with file and line; calls in graveyard are left out. -/
def sites : List Site :=
  [⟨.csv, "rss_ringoccs/tools/advanced_tools.py", 40, 3, ["tau", "verbose"]⟩,
   ⟨.diffraction, "rss_ringoccs/tools/advanced_tools.py", 44, 2,
     ["rng", "wtype", "use_fwd", "use_norm", "bfac", "sigma", "psitype", "res_factor", "verbose", "perturb"]⟩,
   ⟨.csv, "rss_ringoccs/tools/advanced_tools.py", 132, 3, ["tau", "verbose"]⟩,
   ⟨.diffraction, "rss_ringoccs/tools/advanced_tools.py", 136, 2, ["rng", "wtype"]⟩,
   ⟨.diffraction, "rss_ringoccs/tools/advanced_tools.py", 146, 2, ["rng", "wtype"]⟩,
   ⟨.csv, "rss_ringoccs/tools/compare.py", 14, 3, ["tau", "verbose"]⟩,
   ⟨.diffraction, "rss_ringoccs/tools/compare.py", 17, 2, ["rng", "wtype", "fwd", "norm", "bfac", "sigma", "verbose", "psitype", "write_file"]⟩,
   ⟨.csv, "rss_ringoccs/tools/compare.py", 321, 3, ["tau", "verbose"]⟩,
   ⟨.diffraction, "rss_ringoccs/tools/compare.py", 346, 2, ["wtype", "rng", "psitype", "norm", "bfac", "sigma", "res_factor", "verbose"]⟩,
   ⟨.diffraction, "rss_ringoccs/tools/compare.py", 414, 2, ["wtype", "rng", "psitype", "norm", "bfac", "sigma", "res_factor", "verbose"]⟩,
   ⟨.csv, "rss_ringoccs/tools/rss_ringoccs_local_tools.py", 871, 3, []⟩,
   ⟨.diffraction, "rss_ringoccs/tools/rss_ringoccs_local_tools.py", 879, 2, ["rng", "resolution_factor", "psitype", "wtype", "verbose"]⟩,
   ⟨.csv, "rss_ringoccs/tools/rss_ringoccs_local_tools.py", 924, 3, []⟩,
   ⟨.csv, "rss_ringoccs/tools/rss_ringoccs_local_tools.py", 1152, 3, []⟩,
   ⟨.diffraction, "rss_ringoccs/tools/rss_ringoccs_local_tools.py", 1161, 2, ["rng", "resolution_factor", "psitype", "wtype", "verbose"]⟩,
   ⟨.csv, "rss_ringoccs/tools/rss_ringoccs_local_tools.py", 1199, 3, []⟩,
   ⟨.csv, "rss_ringoccs/tools/rss_ringoccs_local_tools.py", 3389, 3, []⟩,
   ⟨.diffraction, "rss_ringoccs/tools/rss_ringoccs_local_tools.py", 3421, 2, ["rng", "resolution_factor", "psitype", "wtype", "verbose"]⟩,
   ⟨.csv, "rss_ringoccs/tools/rss_ringoccs_local_tools.py", 3669, 3, []⟩,
   ⟨.diffraction, "rss_ringoccs/tools/rss_ringoccs_local_tools.py", 3670, 2, ["rng", "res_factor", "psitype", "wtype", "verbose"]⟩,
   ⟨.csv, "pipeline/batch_parallel_CSVtoTAU_template-20260130a.py", 222, 3, []⟩,
   ⟨.diffraction, "pipeline/batch_parallel_CSVtoTAU_template-20260130a.py", 242, 2, ["rng", "resolution_factor", "psitype", "wtype", "verbose"]⟩,
   ⟨.csv, "pipeline/diffrec_batch.py", 64, 3, []⟩,
   ⟨.diffraction, "pipeline/diffrec_batch.py", 70, 2,
     ["rng", "resolution_factor", "psitype", "wtype", "use_fwd", "use_norm", "bfac", "write_file", "verbose"]⟩,
   ⟨.diffraction, "pipeline/e2e_batch.py", 58, 2,
     ["rng", "resolution_factor", "psitype", "wtype", "use_fwd", "use_norm", "bfac", "write_file", "verbose"]⟩,
   ⟨.diffraction, "pipeline/e2e_batch.py", 78, 2,
     ["rng", "resolution_factor", "psitype", "wtype", "use_fwd", "use_norm", "bfac", "write_file", "verbose"]⟩,
   ⟨.diffraction, "pipeline/e2e_batch_1km.py", 119, 2, ["rng", "resolution_factor", "psitype", "wtype", "use_fwd", "use_norm", "bfac", "verbose"]⟩,
   ⟨.diffraction, "pipeline/e2e_batch_1km.py", 144, 2, ["rng", "resolution_factor", "psitype", "wtype", "use_norm", "bfac", "verbose"]⟩,
   ⟨.diffraction, "pipeline/e2e_batch_1km_20260130.py", 212, 2,
     ["rng", "resolution_factor", "psitype", "wtype", "use_fwd", "use_norm", "bfac", "verbose"]⟩,
   ⟨.diffraction, "pipeline/e2e_batch_1km_20260130.py", 246, 2, ["rng", "resolution_factor", "psitype", "wtype", "use_norm", "bfac", "verbose"]⟩,
   ⟨.diffraction, "pipeline/e2e_batch_500m.py", 99, 2, ["rng", "resolution_factor", "psitype", "wtype", "use_fwd", "use_norm", "bfac", "verbose"]⟩,
   ⟨.diffraction, "pipeline/e2e_batch_500m.py", 118, 2, ["rng", "resolution_factor", "psitype", "wtype", "use_fwd", "use_norm", "bfac", "verbose"]⟩,
   ⟨.diffraction, "pipeline/e2e_batch_postUSO_1km.py", 99, 2,
     ["rng", "resolution_factor", "psitype", "wtype", "use_fwd", "use_norm", "bfac", "write_file", "verbose"]⟩,
   ⟨.diffraction, "pipeline/e2e_batch_postUSO_1km.py", 119, 2,
     ["rng", "resolution_factor", "psitype", "wtype", "use_fwd", "use_norm", "bfac", "write_file", "verbose"]⟩,
   ⟨.diffraction, "pipeline/e2e_scattered.py", 53, 2,
     ["rng", "resolution_factor", "psitype", "wtype", "use_fwd", "use_norm", "bfac", "write_file", "verbose"]⟩,
   ⟨.diffraction, "pipeline/e2e_scattered.py", 73, 2,
     ["rng", "resolution_factor", "psitype", "wtype", "use_fwd", "use_norm", "bfac", "write_file", "verbose"]⟩,
   ⟨.diffraction, "pipeline/pipeline_uranus/reconstruction.py", 91, 2,
     ["rng", "res_factor", "psitype", "wtype", "fwd", "norm", "bfac", "write_file", "verbose", "sigma"]⟩,
   ⟨.diffraction, "examples/pipeline_examples/e2e_run.py", 47, 2,
     ["rng", "res_factor", "psitype", "wtype", "fwd", "norm", "bfac", "write_file", "verbose"]⟩,
   ⟨.diffraction, "examples/pipeline_examples/e2e_run.py", 55, 2,
     ["rng", "res_factor", "psitype", "wtype", "fwd", "norm", "bfac", "write_file", "verbose"]⟩,
   ⟨.csv, "examples/pipeline_examples/quick_look_example.py", 32, 3, ["verbose"]⟩,
   ⟨.diffraction, "examples/pipeline_examples/quick_look_example.py", 43, 2,
     ["rng", "res_factor", "psitype", "wtype", "fwd", "norm", "bfac", "write_file", "verbose"]⟩]

/-- Attributes which these places read from or assign to an object of class `DiffractionCorrection`: name, file, line (a selection). -/
def foreign : List (String × String × Nat) :=
  [("power_vals", "rss_ringoccs/tools/advanced_tools.py", 76), ("phase_vals", "rss_ringoccs/tools/advanced_tools.py", 77),
   ("tau_vals", "rss_ringoccs/tools/advanced_tools.py", 78), ("power_vals", "rss_ringoccs/tools/advanced_tools.py", 147),
   ("dx_km", "rss_ringoccs/tools/advanced_tools.py", 149), ("power_vals", "rss_ringoccs/tools/compare.py", 56),
   ("tau_vals", "rss_ringoccs/tools/compare.py", 93), ("phase_vals", "rss_ringoccs/tools/compare.py", 124),
   ("power_vals", "rss_ringoccs/tools/compare.py", 380), ("power_vals", "rss_ringoccs/tools/compare.py", 448),
   ("history", "pipeline/e2e_batch_1km.py", 132), ("history", "pipeline/e2e_batch_1km.py", 156),
   ("power_vals", "examples/pipeline_examples/e2e_run.py", 70), ("p_norm_vals", "examples/pipeline_examples/e2e_run.py", 71),
   ("mu_vals", "examples/pipeline_examples/e2e_run.py", 73), ("tau_vals", "examples/pipeline_examples/e2e_run.py", 74),
   ("phase_rad_vals", "examples/pipeline_examples/e2e_run.py", 76), ("phase_vals", "examples/pipeline_examples/e2e_run.py", 77),
   ("tau_vals", "examples/pipeline_examples/quick_look_example.py", 50)]

/-- Reading or assigning an attribute: `false` is `AttributeError`. -/
def hasAttr (name : String) : Bool := members.contains name

end Verif.Args
