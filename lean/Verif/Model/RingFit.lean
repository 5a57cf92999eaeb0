import Verif.Model.Rsr

/-!
# Fit of a ring feature: rss_ringoccs/tools/ring_fit.py

Numbers are exact.  The fit itself (`scipy.optimize.curve_fit`) is an arbitrary function.
-/
namespace Verif.Fit
open Verif.Rsr

/-- rss_ringoccs/tools/ring_fit.py 122-140.  `data_lims` is `None` or a list; line 135 joins numbers, which is a
`TypeError`. -/
def dataLims (guess : ℚ) (lims : Option (List ℚ)) : Py (ℚ × ℚ) :=
  match lims with
  | some [a, b] =>
    if b < a then .ok (guess - 50, guess + 50)
    else if a < guess ∧ guess < b then .ok (a, b)
    else .error .type
  | _ => .ok (guess - 50, guess + 50)

/-- First guess and bounds of the parameters; `none` is infinite. -/
structure FitStart where
  p0 : List ℚ
  lo : List (Option ℚ)
  hi : List (Option ℚ)
  deriving DecidableEq, Repr

/-- The names of rss_ringoccs/tools/ring_fit.py 103-104. -/
def funcNames : List (List Char) := ["logistic".toList, "gauss".toList, "lorentz".toList, "voigt".toList]

/-- rss_ringoccs/tools/ring_fit.py 142-156; for other names nothing is assigned. -/
def fitStart (func : List Char) (guess : ℚ) (l : ℚ × ℚ) : Option FitStart :=
  if func = "logistic".toList then
    some ⟨[guess, 1, -3, 0], [some l.1, none, none, some (-1 / 10)], [some l.2, none, none, some (1 / 10)]⟩
  else if func = "gauss".toList ∨ func = "lorentz".toList then
    some ⟨[guess, 1, 1, 0], [some l.1, some 0, none, some (-1 / 10)], [some l.2, none, none, some (1 / 10)]⟩
  else if func = "voigt".toList then
    some ⟨[guess, 1, 1, 1, 0], [some l.1, some 0, none, none, some (-1 / 10)], [some l.2, none, none, none, some (1 / 10)]⟩
  else none

/-- A row of the file: radius, longitude, optical depth, observed event time, ring event time
(rss_ringoccs/tools/ring_fit.py 182; the phase is not used here). -/
structure FitRow where
  rho : ℚ
  lamb : ℚ
  tau : ℚ
  oet : ℚ
  ret : ℚ
  deriving DecidableEq, Repr

/-- What `curve_fit` and the residuals give: the parameters, the uncertainty of the first one, and `rms_resid`. -/
structure CurveFit where
  par : List ℚ
  err : ℚ
  rms : ℚ

/-- `np.argmax`. -/
def argmax (l : List ℚ) : Py Nat := argmin (l.map fun x => -x)

/-- Division of floating-point numbers; `none` stands for NaN and infinity. -/
def quot (a b : ℚ) : Option ℚ := if b = 0 then none else some (a / b)

/-- rss_ringoccs/tools/ring_fit.py 219-221: the indices are those of the shortened arrays. -/
def radialVelocity (rho ret : List ℚ) (c : ℚ) : Py (Option ℚ) := do
  let i0 ← argmax (rho.filter (· ≤ c))
  let i1 ← argmin (rho.filter (c < ·))
  pure (quot (rho.getD i1 0 - rho.getD i0 0) (ret.getD i1 0 - ret.getD i0 0))

/-- `np.interp(v, x, y)` for a non-empty `x`: first the two comparisons with the ends (numpy's
`binary_search_with_guess`), then the search.  Simplification: the search is described by the number of elements that are
not greater than `v`, which is right for rising `x`. -/
def npInterp (x y : List ℚ) (v : ℚ) : ℚ :=
  let n := x.length
  if x.getD (n - 1) 0 < v then y.getD (n - 1) 0
  else if v < x.getD 0 0 then y.getD 0 0
  else
    let j := x.countP (· ≤ v) - 1
    if j = n - 1 then y.getD j 0
    else (y.getD (j + 1) 0 - y.getD j 0) / (x.getD (j + 1) 0 - x.getD j 0) * (v - x.getD j 0) + y.getD j 0

/-- rss_ringoccs/tools/ring_fit.py 199, 229-246. -/
def fitFlag (f : CurveFit) : Nat :=
  let aon := |f.par.getD 1 0 - f.par.getD (f.par.length - 1) 0|
  if aon < f.rms ∧ f.rms < 1 then 2
  else if 1 < f.err ∨ 1 < f.rms then 3
  else 0

/-- The attributes of the result. -/
structure RingFit where
  flag : Nat
  centKm : ℚ
  oetSpm : ℚ
  retSpm : ℚ
  rhoDot : Option ℚ
  ilong : ℚ
  deriving DecidableEq, Repr

/-- rss_ringoccs/tools/ring_fit.py 100-287 for an existing file with at least one row and a name that follows the
conventions; `F` is the fit of lines 211-228, a function of the first guess, the radii and the optical depths.
Simplification: `rho[mask]` with the list `mask = [...]` of line 188 selects the rows (older versions of numpy). -/
def ringFit (F : FitStart → List ℚ → List ℚ → CurveFit) (func : List Char) (guess : ℚ) (lims : Option (List ℚ))
    (rows : List FitRow) : Py RingFit :=
  if func.takeWhile (· ≠ '_') ∉ funcNames then .error .systemExit
  else do
    let l ← dataLims guess lims
    let m := rows.filter fun r => l.1 < r.rho ∧ r.rho < l.2
    if 5 < m.length then
      match fitStart func guess l with
      | none => .error .key
      | some s => do
        let f := F s (m.map (·.rho)) (m.map (·.tau))
        let c := f.par.getD 0 0
        let v ← radialVelocity (rows.map (·.rho)) (rows.map (·.ret)) c
        pure ⟨fitFlag f, c, npInterp (m.map (·.rho)) (m.map (·.oet)) c, npInterp (m.map (·.rho)) (m.map (·.ret)) c, v,
          npInterp (m.map (·.rho)) (m.map (·.lamb)) c⟩
    else
      match fitStart func guess l with
      | none => .error .unboundLocal
      | some _ => pure ⟨1, 0, 0, 0, some 0, 0⟩

/-- The parts of the time that `revinfo2utc` puts together: day of the year, hour, minute, second. -/
structure FitTime where
  doy : ℤ
  hour : ℤ
  minute : ℤ
  second : ℚ
  deriving DecidableEq, Repr

/-- rss_ringoccs/tools/ring_fit.py 308-335, before the conversion to text; `%` and `//` are those of Python. -/
def revinfo2utc (doy : ℤ) (spm : ℚ) : FitTime :=
  let d := if 86400 < spm then doy + 1 else doy
  let s := if 86400 < spm then spm - 86400 else spm
  let h := ⌊s / 3600⌋
  let rest := s - 3600 * h
  let m := ⌊rest / 60⌋
  ⟨d, h, m, pyRound ((rest - 60 * m) * 10 ^ 8) / 10 ^ 8⟩

/-- rss_ringoccs/tools/ring_fit.py 254-256: the day and the time of the feature. -/
def featureTime (doy : ℤ) (spm : ℚ) : FitTime := revinfo2utc (doy + ⌊spm / 86400⌋) (spm - 86400 * ⌊spm / 86400⌋)

end Verif.Fit
