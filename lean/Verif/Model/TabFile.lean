import Verif.Model.Pds
import Mathlib.Data.Int.Log

/-!
# Whole tables written by the Python modules

Simplifications: numbers are rational (no NaN, no infinity, no negative zero); `open` succeeds and the texts arrive in the file as they are (on
the systems for which the scripts are written `'w'` changes nothing).
-/
namespace Verif.Pds
open Verif.Rsr Verif.Out

/-- `'%.pE' % x` of Python: one digit, `p` decimals of the nearest value (ties to even), and the exponent with its sign and at least two digits. -/
def sciForm (p : Nat) (x : ℚ) : List Char :=
  let e : ℤ := if x = 0 then 0 else Int.log 10 |x|
  let n := (pyRound (|x| * (10 : ℚ) ^ ((p : ℤ) - e))).toNat
  let m := if n = 10 ^ (p + 1) then 10 ^ p else n
  let f := if n = 10 ^ (p + 1) then e + 1 else e
  (if x < 0 then ['-'] else []) ++ decimal (m / 10 ^ p) ++ '.' :: digits p (m % 10 ^ p) ++
    'E' :: (if f < 0 then '-' else '+') :: ((if f.natAbs < 10 then ['0'] else []) ++ decimal f.natAbs)

/-- rss_ringoccs/tools/pds3_geo_series.py 38-101, pds3_cal_series.py 34-44, pds3_dlp_series.py 44-95, pds3_tau_series.py 36-103: the lines of all
points, one after the other; a row gives what each attribute holds at a point. -/
def fileText (sci : Nat → ℚ → List Char) (str : ℚ → List Char) (k : Series) (rows : List (String → ℚ)) : Py (List Char) := do
  pure (← rows.mapM (line sci str k)).flatten

/-- rss_ringoccs/calibration/calibration_class.py 155-160: a point of a calibration object, from the values of the splines there. -/
def calPoint (t recon offset free : ℚ) : String → ℚ
  | "t_oet_spm" => t
  | "f_sky_hz" => recon + offset
  | "f_offset_fit" => offset
  | "p_free" => free
  | _ => 0

end Verif.Pds
