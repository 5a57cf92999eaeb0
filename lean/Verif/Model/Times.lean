import Verif.Model.Rsr

/-!
# Conversion between seconds past midnight (SPM) and ephemeris time

Simplification: times are rational numbers and the arithmetic on them is exact (rounding to the decimals of the text given
to SPICE is modelled).  SPICE is not part of /repo: its functions are parameters.
-/
namespace Verif.Rsr

/-- The fields of a UTC string `YYYY-DDDThh:mm:ss.sss`. -/
structure Utc where
  year : Int
  doy : Int
  hour : Int
  minute : Int
  second : ℚ
  deriving DecidableEq

/-- Python's `x % d` for positive `d`. -/
def pyMod (x d : ℚ) : ℚ := x - d * ⌊x / d⌋

/-- The number that `'{:2.13f}'.format(x)` shows. -/
def fmt13 (x : ℚ) : ℚ := pyRound (x * 10 ^ 13) / 10 ^ 13

/-- rss_ringoccs/tools/spm_to_et.py 49-92 for one time: the fields of the text given to SPICE. -/
def spmToUtc (spm : ℚ) (doy year : Int) : Utc :=
  let hours := pyInt (spm / 3600)
  let remainder := pyInt (spm - hours * 3600)
  let minutes := pyInt (remainder / 60)
  let seconds := spm - hours * 3600 - minutes * 60
  let daysPerYear : ℚ := if year % 4 = 0 then 366 else 365
  let doyAdjusted : ℚ := doy + hours / 24
  { year := year + ⌊(doyAdjusted - 1) / daysPerYear⌋
    doy := pyInt (1 + pyMod (doyAdjusted - 1) daysPerYear)
    hour := hours % 24
    minute := minutes
    second := fmt13 seconds }

/-- rss_ringoccs/tools/spm_to_et.py 15-96.  `kernels = false`: the keyword is left at `None`; line 44 then uses the name
`os`, which is not imported.  `utc2et` is SPICE. -/
def spmToEt (utc2et : Utc → ℚ) (kernels : Bool) (doy year : Int) (spm : List ℚ) : Py (List ℚ) :=
  if doy = 0 then .error .systemExit
  else if year = 0 then .error .systemExit
  else if !kernels then .error .name
  else .ok (spm.map fun s => utc2et (spmToUtc s doy year))

/-- rss_ringoccs/tools/et_to_spm.py 49-52. -/
def utcSpm (u : Utc) : ℚ := u.hour * 3600 + u.minute * 60 + u.second

/-- rss_ringoccs/tools/et_to_spm.py 57-58: the indices `i` with `l[i + 1] < l[i]`. -/
def dayBreaks (l : List ℚ) : List Nat := (List.range (l.length - 1)).filter fun i => l.getD (i + 1) 0 < l.getD i 0

/-- `c[n:] = c[n:] + x`. -/
def addFrom (n : Nat) (x : ℚ) (c : List ℚ) : List ℚ := c.take n ++ (c.drop n).map (· + x)

/-- rss_ringoccs/tools/et_to_spm.py 60-66. -/
def unwrapDays (l : List ℚ) : List ℚ := (dayBreaks l).foldl (fun c i => addFrom (i + 1) (l.getD i 0) c) l

/-- rss_ringoccs/tools/et_to_spm.py 14-80.  `et2utc` is SPICE; `refDoy = 0` stands for `None` as well (line 69). -/
def etToSpm (et2utc : ℚ → Utc) (refDoy : Int) (ets : List ℚ) : Py (List ℚ) :=
  match ets with
  | [] => .ok []
  | e :: _ =>
    let spm := unwrapDays (ets.map fun t => utcSpm (et2utc t))
    if refDoy = 0 then .ok spm
    else
      let daysPast := (et2utc e).doy - refDoy
      if daysPast < 0 then .error .value
      else .ok (spm.map (· + daysPast * 24 * 60 * 60))

end Verif.Rsr
