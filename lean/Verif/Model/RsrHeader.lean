import Verif.Model.Rsr

/-!
# Reading only the header of an RSR file

The names and formats of the fields, rss_ringoccs/rsr_reader/rsr_header.py 17-115, are those of rsr_reader.py 138-216 (`Verif.Model.Rsr`).
Simplification: as there, the rounding of floats is a parameter.
-/
namespace Verif.RsrHeader
open Verif.Rsr

/-- rss_ringoccs/rsr_reader/rsr_header.py 163-171: the dictionary.  `band` stays the `bytes` object of the field. -/
structure Result where
  spm : List ℚ
  doy : Int
  year : Int
  dsn : Int
  band : Option Val
  rate : Nat

/-- `attribute`: `AttributeError`. -/
inductive Outcome
  | ok (r : Result)
  | error (e : Exn)
  | attribute

/-- rss_ringoccs/rsr_reader/rsr_header.py 159-160 with the float `x` = `n_pts_per_sfdu * n_sfdu`. -/
def points (rnd : ℚ → ℚ) (s dt x : ℚ) : Nat :=
  let stop := rnd (s + rnd (x * dt))
  (pyRound (rnd (rnd (stop - s) / dt))).toNat

/-- rss_ringoccs/rsr_reader/rsr_header.py 118-178 for a file that exists.  Line 153 uses `np.int`, which NumPy has until version
1.23 (`npInt`).  The number of blocks of line 149 is a float. -/
def rsrHeader (npInt : Bool) (rnd : ℚ → ℚ) (file : List Byte) : Outcome :=
  match unpackFrom hdrFmt (file.take (calcsize hdrFmt)) with
  | .error e => .error e
  | .ok v =>
    let blocks := rnd (file.length / ((intField v "sfdu_length" + 20).toNat : ℚ))
    if !npInt then .attribute
    else
      match nPer rnd (intField v "sh_bits_per_sample").toNat (intField v "Data_length").toNat with
      | .error e => .error e
      | .ok per =>
        let rate := (intField v "sh_sample_rate").toNat
        match sampleDt rnd rate with
        | .error e => .error e
        | .ok dt =>
          match dblField v "sh_sfdu_seconds" with
          | .fin s =>
            let pts := points rnd s dt (rnd (per * blocks))
            let year := intField v "sh_year"
            let doy := intField v "sh_doy"
            .ok { spm := arange rnd s dt pts
                  doy := if doy = 0 then intField v "sh_sfdu_doy" else doy
                  year := if year = 0 then intField v "sh_sfdu_year" else year
                  dsn := intField v "sh_dss_id"
                  band := field v "sh_dl_band"
                  rate := rate }
          | _ => .error .value

end Verif.RsrHeader
