/-!
# The bytes of the Python objects: structures, tables of attributes and the storing of flags

rss_ringoccs/crssringoccs/crssringoccs.h 40-110 (the structures), py_csv_obj/crssringoccs_py_csv_obj_members.c and
diffraction_correction/crssringoccs_diffraction_correction_members.c (the tables), and the arguments of `PyArg_ParseTupleAndKeywords`.

Simplifications: pointers and `double` have 8 bytes and `PyObject_HEAD` has 16, as on 64-bit machines; a member is aligned to its size; bytes are
stored least significant first; `tmpl_Bool` is a type of the library libtmpl, which is not part of the package, so its size `b` (1 for `_Bool` and
`unsigned char`, 4 for an enumeration) is a parameter.
-/
namespace Verif.Lay

/-- A member of a structure with its size, which is its alignment. -/
structure CField where
  name : String
  size : Nat
  deriving DecidableEq, Repr

/-- Where a member is. -/
structure Slot where
  name : String
  off : Nat
  size : Nat
  deriving DecidableEq, Repr

/-- The rule of the compiler: each member at the next multiple of its alignment. -/
def layout : Nat → List CField → List Slot
  | _, [] => []
  | off, f :: fs => ⟨f.name, (off + f.size - 1) / f.size * f.size, f.size⟩ :: layout ((off + f.size - 1) / f.size * f.size + f.size) fs

/-- rss_ringoccs/crssringoccs/crssringoccs.h 82-108. -/
def csvFields : List CField :=
  ["B_deg_vals", "D_km_vals", "f_sky_hz_vals", "p_norm_vals", "raw_tau_vals", "phase_deg_vals", "phi_deg_vals", "phi_rl_deg_vals",
   "raw_tau_threshold_vals", "rev_info", "rho_corr_pole_km_vals", "rho_corr_timing_km_vals", "rho_dot_kms_vals", "rho_km_vals", "t_oet_spm_vals",
   "t_ret_spm_vals", "t_set_spm_vals", "history", "rx_km_vals", "ry_km_vals", "rz_km_vals", "tau_phase_deg_vals", "tau_power_vals",
   "tau_vals"].map fun n => ⟨n, 8⟩

/-- rss_ringoccs/crssringoccs/crssringoccs.h 42-79. -/
def diffFields (b : Nat) : List CField :=
  (["T_in", "T_out", "T_fwd", "k_vals", "B_deg_vals", "D_km_vals", "F_km_vals", "phi_deg_vals", "phi_rl_deg_vals", "input_vars", "input_kwds",
    "rho_corr_pole_km_vals", "rho_corr_timing_km_vals", "rho_dot_kms_vals", "rho_km_vals", "t_oet_spm_vals", "t_ret_spm_vals", "t_set_spm_vals",
    "tau_threshold_vals", "w_km_vals", "rx_km_vals", "ry_km_vals", "rz_km_vals"].map fun n => ⟨n, 8⟩) ++
  (["bfac", "use_fwd", "use_norm", "verbose"].map fun n => ⟨n, b⟩) ++
  (["input_resolution_km", "resolution_factor", "eccentricity", "periapse", "sigma", "outfiles", "wtype", "psitype"].map fun n => ⟨n, 8⟩)

/-- The type codes of attributes: `T_OBJECT_EX`, `T_BOOL`, `T_DOUBLE`. -/
inductive Code where
  | object
  | bool
  | double
  deriving DecidableEq, Repr

/-- How many bytes the interpreter reads and writes for a code. -/
def Code.width : Code → Nat
  | .object => 8
  | .bool => 1
  | .double => 8

/-- An entry of a table of attributes: name, code, and the member given to `offsetof`. -/
structure Member where
  name : String
  code : Code
  field : String
  deriving DecidableEq, Repr

/-- py_csv_obj/crssringoccs_py_csv_obj_members.c 21-292. -/
def csvMembers : List Member :=
  ["rho_km_vals", "phase_deg_vals", "B_deg_vals", "D_km_vals", "rx_km_vals", "ry_km_vals", "rz_km_vals", "f_sky_hz_vals", "p_norm_vals",
   "raw_tau_vals", "phi_deg_vals", "phi_rl_deg_vals", "raw_tau_threshold_vals", "rev_info", "rho_corr_pole_km_vals", "rho_corr_timing_km_vals",
   "rho_dot_kms_vals", "t_oet_spm_vals", "t_ret_spm_vals", "t_set_spm_vals", "tau_vals", "tau_power_vals", "tau_phase_deg_vals",
   "history"].map fun n => ⟨n, .object, n⟩

/-- diffraction_correction/crssringoccs_diffraction_correction_members.c 21-245. -/
def diffMembers : List Member :=
  (["rho_km_vals", "B_deg_vals", "D_km_vals", "rx_km_vals", "ry_km_vals", "rz_km_vals", "F_km_vals", "phi_deg_vals", "phi_rl_deg_vals", "T_in",
    "T_out", "T_fwd", "rho_corr_pole_km_vals", "rho_corr_timing_km_vals", "rho_dot_kms_vals", "t_oet_spm_vals", "t_ret_spm_vals",
    "t_set_spm_vals", "tau_threshold_vals", "w_km_vals", "outfiles", "input_vars", "input_kwds"].map fun n => ⟨n, .object, n⟩) ++
  (["bfac", "verbose", "use_norm", "use_fwd"].map fun n => ⟨n, .bool, n⟩) ++
  (["eccentricity", "periapse", "input_resolution_km", "resolution_factor", "sigma"].map fun n => ⟨n, .double, n⟩)

/-- A class: its structure, its table, and the members that its destructor gives back, in order. -/
structure Class where
  fields : List CField
  members : List Member
  released : List String

/-- py_csv_obj/crssringoccs_py_csv_obj_destroy.c 23-46. -/
def csvClass : Class := ⟨csvFields, csvMembers,
  ["B_deg_vals", "D_km_vals", "f_sky_hz_vals", "p_norm_vals", "raw_tau_vals", "phase_deg_vals", "phi_deg_vals", "phi_rl_deg_vals",
   "raw_tau_threshold_vals", "rev_info", "rho_corr_pole_km_vals", "rho_corr_timing_km_vals", "rho_dot_kms_vals", "rho_km_vals", "t_oet_spm_vals",
   "t_ret_spm_vals", "t_set_spm_vals", "history", "rx_km_vals", "ry_km_vals", "rz_km_vals", "tau_phase_deg_vals", "tau_power_vals", "tau_vals"]⟩

/-- diffraction_correction/crssringoccs_diffraction_correction_destroy.c 25-47. -/
def diffClass (b : Nat) : Class := ⟨diffFields b, diffMembers,
  ["T_in", "T_out", "T_fwd", "B_deg_vals", "D_km_vals", "F_km_vals", "phi_deg_vals", "phi_rl_deg_vals", "rho_corr_pole_km_vals",
   "rho_corr_timing_km_vals", "rho_dot_kms_vals", "rho_km_vals", "t_oet_spm_vals", "t_ret_spm_vals", "t_set_spm_vals", "tau_threshold_vals",
   "w_km_vals", "outfiles", "input_vars", "input_kwds", "rx_km_vals", "ry_km_vals", "rz_km_vals"]⟩

/-- The bytes of an object, counted from its beginning. -/
abbrev Bytes := Nat → UInt8

/-- Storing bytes from an offset on. -/
def store (m : Bytes) (off : Nat) (l : List UInt8) : Bytes := fun i => if off ≤ i then (l[i - off]?).getD (m i) else m i

/-- Reading bytes. -/
def load (m : Bytes) (off n : Nat) : List UInt8 := (List.range n).map fun j => m (off + j)

/-- `offsetof`: the structure begins with `PyObject_HEAD`. -/
def slot (fs : List CField) (name : String) : Option Slot := (layout 16 fs).find? fun s => s.name == name

/-- A value as Python hands it over: the address of an object, a truth value, or the bytes of a `double`. -/
inductive Value where
  | ref (l : List UInt8)
  | bool (v : Bool)
  | float (l : List UInt8)
  deriving DecidableEq, Repr

/-- `PyMember_GetOne` for a code: a null pointer with `T_OBJECT_EX` is an `AttributeError` (none). -/
def Code.read : Code → List UInt8 → Option Value
  | .object, l => if l.all (· == 0) then none else some (.ref l)
  | .bool, l => some (.bool (l.any (· != 0)))
  | .double, l => some (.float l)

/-- `PyMember_SetOne` for a code: the bytes to store; none for a `TypeError`.  That any object has an address, also a truth value or a number, is not
modelled: what is stored in an attribute for objects is `ref`. -/
def Code.bytes : Code → Value → Option (List UInt8)
  | .object, .ref l => some l
  | .bool, .bool v => some [if v then 1 else 0]
  | .double, .float l => some l
  | _, _ => none

/-- Reading an attribute: none for an `AttributeError`. -/
def getAttr (k : Class) (m : Bytes) (name : String) : Option Value :=
  match k.members.find? fun t => t.name == name with
  | none => none
  | some t => match slot k.fields t.field with
    | none => none
    | some s => t.code.read (load m s.off t.code.width)

/-- Assigning to an attribute: none for an `AttributeError` or `TypeError`.  All members have the flags 0, so that none is read-only. -/
def setAttr (k : Class) (m : Bytes) (name : String) (v : Value) : Option Bytes :=
  match k.members.find? fun t => t.name == name with
  | none => none
  | some t => match slot k.fields t.field with
    | none => none
    | some s => (t.code.bytes v).map (store m s.off)

/-! ## The flags of a reconstruction -/

/-- A C assignment to a `tmpl_Bool`. -/
def assign (b : Nat) (m : Bytes) (field : String) (v : Bool) : Bytes :=
  match slot (diffFields b) field with
  | none => m
  | some s => store m s.off ((if v then 1 else 0) :: List.replicate (b - 1) 0)

/-- What `PyArg_ParseTupleAndKeywords` does for the letter `p`: it stores a C `int`, if the argument is given. -/
def parseP (b : Nat) (m : Bytes) (field : String) (v : Option Bool) : Bytes :=
  match v, slot (diffFields b) field with
  | some x, some s => store m s.off [if x then 1 else 0, 0, 0, 0]
  | _, _ => m

/-- The flags that the caller gives. -/
structure Flags where
  useFwd : Option Bool
  useNorm : Option Bool
  verbose : Option Bool
  bfac : Option Bool
  deriving DecidableEq, Repr

/-- diffraction_correction/crssringoccs_diffraction_correction_init.c 108-116: the values without arguments. -/
def preset (b : Nat) (m : Bytes) : Bytes :=
  assign b (assign b (assign b (assign b m "use_fwd" false) "verbose" false) "bfac" true) "use_norm" true

/-- diffraction_correction/crssringoccs_diffraction_correction_init.c 108-153, the flags: presets, then the arguments in the order of the format. -/
def parseFlags (b : Nat) (m : Bytes) (g : Flags) : Bytes :=
  parseP b (parseP b (parseP b (parseP b (preset b m) "use_fwd" g.useFwd) "use_norm" g.useNorm) "verbose" g.verbose) "bfac" g.bfac

/-- A flag as C reads it. -/
def flag (b : Nat) (m : Bytes) (field : String) : Bool :=
  match slot (diffFields b) field with
  | none => false
  | some s => (load m s.off b).any (· != 0)

end Verif.Lay
