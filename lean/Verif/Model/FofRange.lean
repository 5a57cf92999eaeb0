import Verif.Model.Geo
import Verif.Model.PyCall

/-!
# Where the frequency offset is measured, and what the history says about it

Simplifications: times and radii are rational; the radius at each sample (a spline in the code) is given as a list; the value that the history has for
an object that was passed is the value itself.
-/
namespace Verif.Fof
open Verif.Rsr Verif.Geo

/-- rss_ringoccs/calibration/freq_offset_fit.py 98-107: the frequency of the oscillator in the band, from that in the X band. -/
def uso (band : Char) (fx : ℚ) : Py ℚ :=
  if band = 'X' then .ok fx
  else if band = 'S' then .ok (fx * (3 / 11))
  else if band = 'K' then .ok (fx * (38 / 10))
  else .error .value

/-- rss_ringoccs/calibration/freq_offset_fit.py 120: the times of the samples with a radius between 65000 and 175000 km. -/
def within (spm rho : List ℚ) : List ℚ := ((spm.zip rho).filter fun x => 65000 < x.2 ∧ x.2 < 175000).map (·.1)

/-- rss_ringoccs/calibration/freq_offset_fit.py 138-141: the first and the last time. -/
def ends (spm : List ℚ) : Py (ℚ × ℚ) :=
  match spm with
  | [] => .error .index
  | x :: xs => .ok (x, (x :: xs).getLastD x)

/-- rss_ringoccs/calibration/freq_offset_fit.py 128-141: without limits that can be used. -/
def byRadius (year doy : ℕ) (spm rho : List ℚ) : Py (ℚ × ℚ) :=
  if year = 2008 ∧ doy = 39 then .ok (64000, 67000)
  else if 2 < (within spm rho).length then do
    let lo ← pyMinL (within spm rho)
    let hi ← pyMaxL (within spm rho)
    pure (lo, hi)
  else ends spm

/-- rss_ringoccs/calibration/freq_offset_fit.py 122-141: `spm_min` and `spm_max`. -/
def range (lims : Option (List ℚ)) (year doy : ℕ) (spm rho : List ℚ) : Py (ℚ × ℚ) :=
  match lims with
  | some [a, b] => if b - a > 100 then .ok (a, b) else byRadius year doy spm rho
  | _ => byRadius year doy spm rho

/-! ### The history -/

/-- The parameters of a class and the names in the dictionaries `Positional Args` and `Keyword Args` of its history. -/
structure Kind where
  sig : PyCall.Sig
  recorded : List String

/-- rss_ringoccs/rsr_reader/rsr_reader.py 844-857. -/
def rsrKind : Kind := ⟨PyCall.rsrReader, ["rsr_file", "decimate_16khz_to_1khz", "decimate_16khz_to_2khz", "decimate_16khz_to_4khz", "decimate_16khz_to_8khz",
  "decimate_50khz_to_1khz", "decimate_50khz_to_5khz", "decimate_50khz_to_10khz", "decimate_50khz_to_25khz"]⟩

/-- rss_ringoccs/occgeo/occgeo.py 423-441. -/
def geoKind : Kind := ⟨PyCall.geometry, ["rsr_inst", "kernels", "planet", "spacecraft", "pt_per_sec", "ref", "ring_frame", "nhat_p"]⟩

/-- rss_ringoccs/calibration/calibration_class.py 169-184. -/
def calKind : Kind := ⟨PyCall.calibration, ["rsr_inst", "geo_inst", "pnf_order", "interact"]⟩

/-- rss_ringoccs/calibration/dlp_class.py 91-93 and 236-249. -/
def dlpKind : Kind := ⟨⟨["rsr_inst", "geo_inst", "cal_inst", "dr_km", "verbose", "write_file", "profile_range", "local_path_to_output"], 4⟩,
  ["rsr_inst", "geo_inst", "cal_inst", "dr_km", "profile_range"]⟩

/-- rss_ringoccs/occgeo/occgeo_uranus.py 116-118, 124-139 and 281. -/
def uranusKind : Kind := ⟨⟨["year", "doy", "dsn", "f_sky_hz_vals", "t_oet_spm_vals", "planet", "spacecraft", "kernels", "rev_info", "pt_per_sec", "ref",
  "ring_frame", "nhat_p", "verbose", "write_file"], 9⟩,
  ["year", "doy", "dsn", "f_sky_hz_vals", "t_oet_spm_vals", "planet", "spacecraft", "kernels", "pt_per_sec", "ref", "ring_frame", "nhat_p"]⟩

/-- rss_ringoccs/tools/history.py 201-249: the arguments in the history. -/
def history {V : Type} (k : Kind) (args : String → V) : List (String × V) := k.recorded.map fun n => (n, args n)

end Verif.Fof
