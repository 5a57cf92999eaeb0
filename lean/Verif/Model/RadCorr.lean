import Verif.Model.PowerNorm
import Mathlib.Data.List.Infix

/-!
# Corrections of the radius scale for pole and trajectory

Simplifications: exact arithmetic of rational numbers; the times of a profile are different and at least two points are kept when many
are thinned out (`NMAX` is 500 or 1000).  The radius of the ring intercept point at a time is a function `rho` of the pole in the kernel
pool and the time, which SPICE may refuse to compute (`none`).  Figures are not modelled beyond the error for arrays of different length.
-/
namespace Verif.RadCorr
open Verif.Geo Verif.Cal

/-- The kernel pool variables `BODY699_POLE_RA` and `BODY699_POLE_DEC`; an empty list is a variable that is not there. -/
structure Pool where
  ra : List ℚ
  dec : List ℚ
  deriving DecidableEq

/-- The ways to fail. -/
inductive Err where
  | spice
  | plot
  | assertion
  | gradient
  | noTable
  | badLine
  deriving DecidableEq

/-- The kernel pool afterwards, and the three arrays that are returned: corrections, computed radii, corrected radii. -/
structure Result where
  pool : Pool
  out : Except Err (List ℚ × List ℚ × List ℚ)

/-- `spice.gdpool(name, 0, 3)`. -/
def gdpool (l : List ℚ) : Option (List ℚ) := if l = [] then none else some (l.take 3)

/-- rss_ringoccs/tools/rss_ringoccs_local_tools.py 2935-2951 (also 3009-3025, 3084-3100, 3164-3180): the poles of the two fits, brought
from 2008 Jan 1 12:00, `epoch` seconds after J2000, to J2000. -/
def fittedPole (epoch : ℚ) (fit : Int) : Option Pool :=
  let cy := epoch / 36525 / 86400
  if fit = 1 then some ⟨[40.579414 - (-0.03497) * cy, -0.03497, 0], [83.537218 - (-0.00324) * cy, -0.00324, 0]⟩
  else if fit = 7 then some ⟨[40.579425 - (-0.03062) * cy, -0.03062, 0], [83.537202 - (-0.00461) * cy, -0.00461, 0]⟩
  else none

/-- rss_ringoccs/tools/rss_ringoccs_local_tools.py 2911-2914 (2984-2987, 3059-3062, 3141-3144). -/
def thinned (et : List ℚ) (nmax : Nat) : List ℚ :=
  if nmax < et.length then linspace (et.getD 0 0) (et.getD (et.length - 1) 0) nmax else et

/-- rss_ringoccs/tools/rss_ringoccs_local_tools.py 2898-2968 and 2971-3042: `radius_correction_pole` and `radius_correction_pole_from_tau_inst`
from the radii and times of the profile on. -/
def poleCorrection (rho : Pool → ℚ → Option ℚ) (epoch : ℚ) (fit : Int) (verbose : Bool) (nmax : Nat) (radii et : List ℚ) (pool : Pool) :
    Result :=
  let us := thinned et nmax
  match us.mapM (rho pool) with
  | none => ⟨pool, .error .spice⟩
  | some again =>
    let recalc := if nmax < et.length then us.map (interp1d et radii) else again
    if verbose ∧ recalc.length ≠ radii.length then ⟨pool, .error .plot⟩
    else
      match gdpool pool.ra, gdpool pool.dec with
      | some ra, some dec =>
        match fittedPole epoch fit with
        | none => ⟨pool, .error .assertion⟩
        | some pole =>
          match us.mapM (rho pole) with
          | none => ⟨pole, .error .spice⟩
          | some corr =>
            let d := List.zipWith (· - ·) corr recalc
            ⟨⟨ra, dec⟩, .ok (if nmax < et.length then (et.map (interp1d us d), recalc, et.map (interp1d us corr)) else (d, recalc, corr))⟩
      | _, _ => ⟨pool, .error .spice⟩

/-- `np.gradient(f, x)[i]` for at least two points. -/
def gradientAt (f x : List ℚ) (i : Nat) : ℚ :=
  let n := x.length
  if i = 0 then (f.getD 1 0 - f.getD 0 0) / (x.getD 1 0 - x.getD 0 0)
  else if i = n - 1 then (f.getD (n - 1) 0 - f.getD (n - 2) 0) / (x.getD (n - 1) 0 - x.getD (n - 2) 0)
  else
    let d := x.getD i 0 - x.getD (i - 1) 0
    let e := x.getD (i + 1) 0 - x.getD i 0
    d / (e * (d + e)) * f.getD (i + 1) 0 + (e - d) / (d * e) * f.getD i 0 - e / (d * (d + e)) * f.getD (i - 1) 0

/-- A line of the output of the ring fit: its text and `float(line.split()[4])`. -/
structure Line where
  text : List Char
  fifth : Option ℚ

/-- rss_ringoccs/tools/rss_ringoccs_local_tools.py 2053-2078: `name` is the text `match`, and `dsn` the number of the station; shift in time
and scale. -/
def coefficients (name dsn : List Char) (lines : List Line) : Except Err (ℚ × ℚ) :=
  lines.foldlM (init := (0, 0)) fun c l =>
    if name <:+: l.text then do
      let c ← if ('D' :: dsn ++ "_dt".toList) <:+: l.text then
          match l.fifth with
          | some v => .ok (v, c.2)
          | none => .error .badLine
        else .ok c
      if ('D' :: dsn ++ "_dr/dR1000".toList) <:+: l.text then
        match l.fifth with
        | some v => .ok (c.1, v)
        | none => .error .badLine
      else .ok c
    else .ok c

/-- rss_ringoccs/tools/rss_ringoccs_local_tools.py 3045-3123 and 3125-3203: `radius_correction_trajectory` and
`radius_correction_trajectory_from_tau_inst`.  `table fit`: the lines of the file for this fit, if it is there. -/
def trajectoryCorrection (rho : Pool → ℚ → Option ℚ) (table : Int → Option (List Line)) (name dsn : List Char) (epoch : ℚ) (fit : Int)
    (verbose : Bool) (nmax : Nat) (radii et : List ℚ) (pool : Pool) : Result :=
  let us := thinned et nmax
  match us.mapM (rho pool) with
  | none => ⟨pool, .error .spice⟩
  | some again =>
    let recalc := if nmax < et.length then et.map (interp1d us again) else again
    if verbose ∧ recalc.length ≠ radii.length then ⟨pool, .error .plot⟩
    else
      match gdpool pool.ra, gdpool pool.dec with
      | some ra, some dec =>
        match fittedPole epoch fit with
        | none => ⟨pool, .error .assertion⟩
        | some pole =>
          match us.mapM (rho pole) with
          | none => ⟨pole, .error .spice⟩
          | some corr =>
            match table fit with
            | none => ⟨pole, .error .noTable⟩
            | some lines =>
              match coefficients name dsn lines with
              | .error e => ⟨pole, .error e⟩
              | .ok (dt, alpha) =>
                if us.length < 2 then ⟨pole, .error .gradient⟩
                else
                  let d := (List.range us.length).map fun i =>
                    gradientAt corr us i * dt - alpha * (corr.getD i 0 - 100000) / 1000
                  ⟨⟨ra, dec⟩, .ok (if nmax < et.length then (et.map (interp1d us d), recalc, et.map (interp1d us corr)) else (d, recalc, corr))⟩
      | _, _ => ⟨pool, .error .spice⟩

/-- What a member of a tau object may hold: an array or a tuple of arrays. -/
inductive Attr where
  | array (l : List ℚ)
  | tuple (l : List (List ℚ))

/-- rss_ringoccs/tools/rss_ringoccs_local_tools.py 888-891: `demo_e2e_event` keeps the first of the three arrays. -/
def keepFirst (r : List ℚ × List ℚ × List ℚ) : Attr := .array r.1

/-- rss_ringoccs/tools/rss_ringoccs_local_tools.py 1170: `demo_e2e_event_loop` keeps the tuple (the same in 1173-1174). -/
def keepAll (r : List ℚ × List ℚ × List ℚ) : Attr := .tuple [r.1, r.2.1, r.2.2]

/-- rss_ringoccs/tools/pds3_tau_series.py 86-87: `'%10.6F' % inst.rho_corr_pole_km_vals[n]`; `none` is `IndexError` or `TypeError`, since
only an array with one element is a number. -/
def cell (a : Attr) (n : Nat) : Option ℚ :=
  match a with
  | .array l => l[n]?
  | .tuple l =>
    match l[n]? with
    | some [v] => some v
    | _ => none

end Verif.RadCorr
