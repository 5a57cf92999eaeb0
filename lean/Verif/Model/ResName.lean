import Verif.Model.OutName
import Verif.Model.Binary

/-!
# Resolutions in the names of files

`rnd` is the rounding of double arithmetic.  Simplification: `float` of the four characters accepts digits only.
-/
namespace Verif.Out
open Verif.Rsr

/-- `str(i).zfill(w)`: zeros follow a sign. -/
def zfillInt (w : Nat) (i : ℤ) : List Char :=
  if i < 0 then '-' :: List.replicate (w - 1 - (decimal i.natAbs).length) '0' ++ decimal i.natAbs
  else List.replicate (w - (decimal i.natAbs).length) '0' ++ decimal i.natAbs

/-- `DiffractionLimitedProfile.dr_km` for radii `k` metres apart, to the nearest metre: rss_ringoccs/calibration/dlp_class.py 147. -/
def drKm (rnd : ℚ → ℚ) (k : Nat) : ℚ := rnd (k / 1000)

/-- rss_ringoccs/tools/write_output_files.py 72: the number in the type of a DLP file. -/
def dlpNumber (rnd : ℚ → ℚ) (dr : ℚ) : ℤ := pyInt (rnd (rnd (dr * 1000) * 2))

/-- rss_ringoccs/tools/write_output_files.py 72. -/
def dlpType (rnd : ℚ → ℚ) (dr : ℚ) (add : List Char) : List Char :=
  "DLP_".toList ++ zfillInt 4 (dlpNumber rnd dr) ++ 'M' :: add

/-- rss_ringoccs/tools/write_output_files.py 75: the number in the type of a TAU file. -/
def tauNumber (rnd : ℚ → ℚ) (res : ℚ) : ℤ := pyInt (rnd (res * 1000))

/-- rss_ringoccs/tools/write_output_files.py 75. -/
def tauType (rnd : ℚ → ℚ) (res : ℚ) (add : List Char) : List Char :=
  "TAU_".toList ++ zfillInt 5 (tauNumber rnd res) ++ 'M' :: add

/-- What follows the first `DLP_`: rss_ringoccs/tools/rss_ringoccs_local_tools.py 2363, `dlp_file.index('DLP_')+4`. -/
def afterDlp : List Char → Option (List Char)
  | [] => none
  | c :: cs => if "DLP_".toList.isPrefixOf (c :: cs) then some (cs.drop 3) else afterDlp cs

/-- `min_valid_res_km`: rss_ringoccs/tools/rss_ringoccs_local_tools.py 2357-2365. -/
def minValid (rnd : ℚ → ℚ) (file : List Char) (factor : ℚ) : Py ℚ :=
  match afterDlp file with
  | none => .error .value
  | some s => do
    let n ← pyIntDigits (s.take 4)
    if factor = 0 then .error .zeroDivision else .ok (rnd (rnd (n / 1000) / factor))

/-- `is_res_km_valid`: rss_ringoccs/tools/rss_ringoccs_local_tools.py 2077-2083; `false` is the exception. -/
def resValid (rnd : ℚ → ℚ) (file : List Char) (factor res : ℚ) : Py Bool := do
  let m ← minValid rnd file factor
  .ok (!decide (res < m))

/-- `min_dlp_res`, in metres: pipeline/batch_parallel_CSVtoTAU_template-20260130a.py 92 with
rss_ringoccs/tools/rss_ringoccs_local_tools.py 2348-2352. -/
def minDlpRes (rnd : ℚ → ℚ) (res factor : ℚ) : ℚ := rnd (rnd (res * factor) * 1000)

/-- The resolution in metres of the DLP file that is looked for: pipeline/batch_parallel_CSVtoTAU_template-20260130a.py 98-111. -/
def dlpChoice (m : ℚ) : Nat :=
  if m < 20 then 10 else if m < 40 then 20 else if m < 50 then 40 else if m < 100 then 50
  else if m < 200 then 100 else if m < 500 then 200 else 500

/-- The names that the pattern `DLP_*<n>M_` finds: pipeline/batch_parallel_CSVtoTAU_template-20260130a.py 99-111 and 148. -/
def Found (n : Nat) (name : List Char) : Prop :=
  ∃ a b c, name = a ++ "DLP_".toList ++ b ++ decimal n ++ "M_".toList ++ c

end Verif.Out
