import Verif.Model.Rsr
import Mathlib.Algebra.Order.Floor.Ring
import Mathlib.Data.Rat.Floor

/-!
# Differences of the optical depth between the bands: rss_ringoccs/tools/rss_ringoccs_local_tools.py 1502-1580, 1694-1709

Simplifications: exact rational numbers; `none` is NaN; a file is the list of its rows (radius, optical depth) and has at least two of
them (`np.loadtxt` of one row gives numbers instead of arrays); one feature (`profile`) at a time, since every feature has its own rows
of the tables and its own bins.
-/
namespace Verif.DOp
open Verif.Rsr

/-- rss_ringoccs_local_tools.py 1552: `np.arange(rho_min+edge_adjust,rho_max-edge_adjust,binsize)`. -/
def centres (rmin rmax edge b : ℚ) : List ℚ :=
  (List.range ⌈((rmax - edge) - (rmin + edge)) / b⌉.toNat).map fun k : Nat => rmin + edge + k * b

/-- rss_ringoccs_local_tools.py 1555: the mask of one bin. -/
def inBin (rmin rmax b c rho : ℚ) : Bool := rho > c - b / 2 && rho < c + b / 2 && rho > rmin && rho < rmax

/-- rss_ringoccs_local_tools.py 1560: NaN when all values are NaN (or there is none), otherwise `np.nanmean`. -/
def nanMean (tau : List (Option ℚ)) : Option ℚ :=
  if tau.all Option.isNone then none else some ((tau.filterMap id).sum / (tau.filterMap id).length)

/-- rss_ringoccs_local_tools.py 1549-1562: the list `tau_vals` of one file.  `taui != np.nan` (line 1561) is true of every number, NaN
included, so nothing is left out. -/
def binFile (rmin rmax edge b : ℚ) (file : List (ℚ × Option ℚ)) : List (Option ℚ) :=
  (centres rmin rmax edge b).map fun c => nanMean ((file.filter fun s => inBin rmin rmax b c s.1).map (·.2))

/-- rss_ringoccs_local_tools.py 1694-1709: `find_first_nan_index`. -/
def firstNan (row : List (Option ℚ)) : Option Nat := row.findIdx? Option.isNone

/-- rss_ringoccs_local_tools.py 1565-1569: `row[istart:istart+ntau] = tau_vals`.  Without a NaN `istart` is `None` and the sum is a `TypeError`; when
the values do not fit, the shapes differ (`ValueError`; one value would be spread, but one value always fits). -/
def store (row vals : List (Option ℚ)) : Py (List (Option ℚ)) :=
  if vals.length = 0 then .ok row
  else match firstNan row with
    | none => .error .type
    | some i => if i + vals.length ≤ row.length then .ok (row.take i ++ vals ++ row.drop (i + vals.length)) else .error .value

/-- The bands in the order in which the names are looked at, rss_ringoccs_local_tools.py 1566-1575. -/
inductive Band
  | k | x | s
  deriving DecidableEq, Repr

/-- rss_ringoccs_local_tools.py 1566-1573: the table of a file, from its name. -/
def bandOf (name : List Char) : Option Band :=
  if "_K".toList <:+: name then some .k
  else if "_X".toList <:+: name then some .x
  else if "_S".toList <:+: name then some .s
  else none

/-- rss_ringoccs_local_tools.py 1535-1537: the rows of one feature in the three tables. -/
abbrev Rows := Band → List (Option ℚ)

/-- rss_ringoccs_local_tools.py 1564-1575: the values of one file go to the table of its band. -/
def put (t : Rows) (name : List Char) (vals : List (Option ℚ)) : Py Rows :=
  match bandOf name with
  | none => .ok t
  | some d => do
    let r ← store (t d) vals
    pure fun e => if e = d then r else t e

/-- rss_ringoccs_local_tools.py 1535-1575: all files, in the order of `glob`. -/
def fillAll (nmax : Nat) (rmin rmax edge b : ℚ) (files : List (List Char × List (ℚ × Option ℚ))) : Py Rows :=
  files.foldlM (fun t f => put t f.1 (binFile rmin rmax edge b f.2)) fun _ => List.replicate nmax none

/-- rss_ringoccs_local_tools.py 1578: `100.*(tau_k-tau_x)/tau_x` of one column; NaN also for division by 0 (an infinity in the code). -/
def dtKX (t : Rows) (i : Nat) : Option ℚ :=
  match (t .k).getD i none, (t .x).getD i none with
  | some k, some x => if x = 0 then none else some (100 * (k - x) / x)
  | _, _ => none

end Verif.DOp
