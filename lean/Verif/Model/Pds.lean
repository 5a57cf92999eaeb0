import Verif.Model.Rsr
import Verif.Model.OutName
import Mathlib.Algebra.Order.Floor.Ring

/-!
# Tables and labels in PDS3 format

Simplifications: texts are lists of characters; numbers are rational (no NaN, no infinity, no negative zero); what `%E` gives is an argument.
-/
namespace Verif.Pds
open Verif.Rsr Verif.Out

/-- A piece of a format text of Python's `%`: a character, `%w.pF`, `%w.pE` or `%s`. -/
inductive Piece where
  | lit (c : Char)
  | fix (w p : Nat)
  | sci (w p : Nat)
  | str
deriving DecidableEq, Repr

/-- The pieces of a format text; `fuel` is at least its length.  Only the forms that occur in the files are known. -/
def pieces : Nat → List Char → Option (List Piece)
  | 0, _ => none
  | _ + 1, [] => some []
  | n + 1, '%' :: 's' :: cs => (pieces n cs).map (Piece.str :: ·)
  | n + 1, '%' :: cs =>
    let w := cs.takeWhile isDigit
    match cs.dropWhile isDigit with
    | '.' :: ds =>
      let p := ds.takeWhile isDigit
      match ds.dropWhile isDigit with
      | 'F' :: es => (pieces n es).map (Piece.fix (value w) (value p) :: ·)
      | 'E' :: es => (pieces n es).map (Piece.sci (value w) (value p) :: ·)
      | _ => none
    | _ => none
  | n + 1, c :: cs => (pieces n cs).map (Piece.lit c :: ·)

/-- Exactly `p` digits of `n`, with zeros in front. -/
def digits : Nat → Nat → List Char
  | 0, _ => []
  | p + 1, n => digits p (n / 10) ++ [Char.ofNat (48 + n % 10)]

/-- `'%.pF' % x`: the number of `p` decimals that is nearest, ties to even. -/
def fixed (p : Nat) (x : ℚ) : List Char :=
  let n := (pyRound (|x| * 10 ^ p)).toNat
  (if x < 0 then ['-'] else []) ++ decimal (n / 10 ^ p) ++ '.' :: digits p (n % 10 ^ p)

/-- Spaces in front, up to the width. -/
def pad (w : Nat) (s : List Char) : List Char := List.replicate (w - s.length) ' ' ++ s

/-- An argument of `%`. -/
inductive Arg where
  | num (x : ℚ)
  | txt (s : List Char)

/-- `format % args`; a wrong number or type of arguments is a `TypeError`; `sci p` is the text of `'%.pE'`, `str` that of a number for `%s`. -/
def percent (sci : Nat → ℚ → List Char) (str : ℚ → List Char) : List Piece → List Arg → Py (List Char)
  | [], [] => .ok []
  | [], _ :: _ => .error .type
  | .lit c :: ps, as => do pure (c :: (← percent sci str ps as))
  | .fix w p :: ps, .num x :: as => do pure (pad w (fixed p x) ++ (← percent sci str ps as))
  | .sci w p :: ps, .num x :: as => do pure (pad w (sci p x) ++ (← percent sci str ps as))
  | .str :: ps, .txt s :: as => do pure (s ++ (← percent sci str ps as))
  | .str :: ps, .num x :: as => do pure (str x ++ (← percent sci str ps as))
  | .fix _ _ :: _, _ => .error .type
  | .sci _ _ :: _, _ => .error .type
  | .str :: _, [] => .error .type

/-- `s * n` of Python. -/
def times (s : String) (n : Nat) : List Char := (List.replicate n s.toList).flatten

/-- The kinds of files; `ul` has the columns for the uplink. -/
inductive Series where
  | geo | geoUl | cal | dlp | dlpUl | tau | tauUl
deriving DecidableEq, Repr

/-- rss_ringoccs/tools/pds3_geo_series.py 35-36 and 44-47, 76-77; pds3_cal_series.py 33; pds3_dlp_series.py 46-49, 73-75;
pds3_tau_series.py 41-44, 76-78: `format_str`. -/
def formatStr : Series → List Char
  | .geo => times "%14.6F," 4 ++ times "%12.6F," 3 ++ "%16.6F,".toList ++ times "%14.6F," 4 ++ times "%16.6F," 3 ++ times "%14.6F," 3 ++
      "%12.6F".toList ++ "%s".toList
  | .geoUl => times "%14.6F," 4 ++ times "%12.6F," 3 ++ "%16.6F,".toList ++ times "%14.6F," 4 ++ times "%16.6F," 3 ++ times "%14.6F," 3 ++
      "%12.6F,".toList ++ times "%14.6F," 3 ++ "%12.6F,".toList ++ "%12.6F".toList ++ "%s".toList
  | .cal => "%14.6F,%20.6F,%10.6F,%14.6F%s".toList
  | .dlp => "%14.6F,%10.6F,%10.6F,%12.6F,%12.6F,%14.6E,%14.6E,%12.6F,%14.6E,%14.6F,%14.6F,%14.6F,%12.6F%s".toList
  | .tau => "%14.6F,%10.6F,%10.6F,%12.6F,%12.6F,%14.6E,%14.6E,%12.6F,%14.6E,%14.6F,%14.6F,%14.6F,%12.6F%s".toList
  | .dlpUl => "%14.6F,%10.6F,%10.6F,%12.6F,%12.6F,%14.6E,%14.6E,%12.6F,%14.6E,%14.6F,%14.6F,%14.6F,%12.6F,".toList ++ times "%14.6F," 3 ++
      "%12.6F,".toList ++ "%12.6F".toList ++ "%s".toList
  | .tauUl => "%14.6F,%10.6F,%10.6F,%12.6F,%12.6F,%14.6E,%14.6E,%12.6F,%14.6E,%14.6F,%14.6F,%14.6F,%12.6F,".toList ++ times "%14.6F," 3 ++
      "%12.6F,".toList ++ "%12.6F".toList ++ "%s".toList

/-- The columns of the uplink. -/
def ulColumns : List String := ["t_ul_spm", "t_ul_ret_spm", "ul_rho_km", "ul_phi_rl_deg", "ul_phi_ora_deg"]

/-- rss_ringoccs/tools/pds3_geo_series.py 48-73 and 79-98; pds3_cal_series.py 37-41; pds3_dlp_series.py 52-71 and 78-92;
pds3_tau_series.py 50-74 and 84-99: what is written in the columns of a line, before the end of the line. -/
def written : Series → List String
  | .geo => ["t_oet_spm", "t_ret_spm", "t_set_spm", "rho_km", "phi_rl_deg", "phi_ora_deg", "B_deg", "D_km", "rho_dot_kms",
      "phi_rl_dot_kms", "F_km", "R_imp_km", "rx_km", "ry_km", "rz_km", "vx_kms", "vy_kms", "vz_kms", "elev_deg"]
  | .geoUl => ["t_oet_spm", "t_ret_spm", "t_set_spm", "rho_km", "phi_rl_deg", "phi_ora_deg", "B_deg", "D_km", "rho_dot_kms",
      "phi_rl_dot_kms", "F_km", "R_imp_km", "rx_km", "ry_km", "rz_km", "vx_kms", "vy_kms", "vz_kms", "elev_deg"] ++ ulColumns
  | .cal => ["t_oet_spm", "f_sky_hz", "f_offset_fit", "p_free"]
  | .dlp => ["rho_km", "rho_corr_pole_km", "rho_corr_timing_km", "phi_rl_deg", "phi_ora_deg", "p_norm", "tau_norm", "phase_deg",
      "raw_tau_threshold", "t_oet_spm", "t_ret_spm", "t_set_spm", "B_deg"]
  | .dlpUl => ["rho_km", "rho_corr_pole_km", "rho_corr_timing_km", "phi_rl_deg", "phi_ora_deg", "p_norm", "tau_norm", "phase_deg",
      "raw_tau_threshold", "t_oet_spm", "t_ret_spm", "t_set_spm", "B_deg"] ++ ulColumns
  | .tau => ["rho_km", "rho_corr_pole_km", "rho_corr_timing_km", "phi_rl_deg", "phi_ora_deg", "p_norm", "tau_norm", "phase_deg",
      "raw_tau_threshold", "t_oet_spm", "t_ret_spm", "t_set_spm", "B_deg"]
  | .tauUl => ["rho_km", "rho_corr_pole_km", "rho_corr_timing_km", "phi_rl_deg", "phi_ora_deg", "phi_rl_deg", "phi_ora_deg", "p_norm",
      "tau_norm", "phase_deg", "raw_tau_threshold", "t_oet_spm", "t_ret_spm", "t_set_spm", "B_deg"] ++ ulColumns

/-- The columns of the uplink in the label: rss_ringoccs/tools/pds3_geo_series.py 606-657, pds3_dlp_series.py 650-697,
pds3_tau_series.py 712-758. -/
def ulNames : List (String × String) :=
  [("UPLINK TRANSMISSION TIME", "SECOND"), ("UPLINK RING EVENT TIME", "SECOND"), ("UPLINK RING RADIUS", "KILOMETER"),
    ("UPLINK RING LONGITUDE", "DEGREE"), ("UPLINK OBSERVED RING AZIMUTH", "DEGREE")]

/-- rss_ringoccs/tools/pds3_geo_series.py 437-464: names and units, without the quotation marks. -/
def geoNames : List (String × String) :=
  [("OBSERVED EVENT TIME", "SECOND"), ("RING EVENT TIME", "SECOND"), ("SPACECRAFT EVENT TIME", "SECOND"), ("RING RADIUS", "KILOMETER"),
    ("RING LONGITUDE", "DEGREE"), ("OBSERVED RING AZIMUTH", "DEGREE"), ("OBSERVED RING ELEVATION", "DEGREE"),
    ("SPACECRAFT TO RING INTERCEPT DISTANCE", "KILOMETER"), ("RING INTERCEPT RADIAL VELOCITY", "KM/SEC"),
    ("RING INTERCEPT AZIMUTHAL VELOCITY", "KM/SEC"), ("FRESNEL SCALE", "KILOMETER"), ("IMPACT RADIUS", "KILOMETER"),
    ("SPACECRAFT POSITION X", "KILOMETER"), ("SPACECRAFT POSITION Y", "KILOMETER"), ("SPACECRAFT POSITION Z", "KILOMETER"),
    ("SPACECRAFT VELOCITY X", "KM/SEC"), ("SPACECRAFT VELOCITY Y", "KM/SEC"), ("SPACECRAFT VELOCITY Z", "KM/SEC"),
    ("OBSERVED SPACECRAFT LATITUDE", "DEGREE")]

/-- rss_ringoccs/tools/pds3_cal_series.py 401-410. -/
def calNames : List (String × String) :=
  [("OBSERVED EVENT TIME", "SECOND"), ("SKY FREQUENCY", "HERTZ"), ("OFFSET FREQUENCY", "HERTZ"), ("FREESPACE POWER", "N/A")]

/-- rss_ringoccs/tools/pds3_dlp_series.py 531-548 (there `OBSERVED_RING_AZIMUTH`), pds3_tau_series.py 591-608. -/
def dlpNames (azimuth : String) : List (String × String) :=
  [("RING RADIUS", "KILOMETER"), ("RADIUS CORRECTION DUE TO IMPROVED POLE", "N/A"), ("RADIUS CORRECTION DUE TO TIMING OFFSET", "N/A"),
    ("RING LONGITUDE", "DEGREE"), (azimuth, "DEGREE"), ("NORMALIZED SIGNAL POWER", "N/A"), ("NORMAL OPTICAL DEPTH", "N/A"),
    ("PHASE SHIFT", "DEGREE"), ("NORMAL OPTICAL DEPTH THRESHOLD", "N/A"), ("OBSERVED EVENT TIME", "SECOND"),
    ("RING EVENT TIME", "SECOND"), ("SPACECRAFT EVENT TIME", "SECOND"), ("OBSERVED RING ELEVATION", "DEGREE")]

/-- `object_names` and `units`. -/
def names : Series → List (String × String)
  | .geo => geoNames
  | .geoUl => geoNames ++ ulNames
  | .cal => calNames
  | .dlp => dlpNames "OBSERVED_RING_AZIMUTH"
  | .dlpUl => dlpNames "OBSERVED_RING_AZIMUTH" ++ ulNames
  | .tau => dlpNames "OBSERVED RING AZIMUTH"
  | .tauUl => dlpNames "OBSERVED RING AZIMUTH" ++ ulNames

/-- rss_ringoccs/tools/pds3_geo_series.py 139-157, pds3_cal_series.py 76, pds3_dlp_series.py 127-135, pds3_tau_series.py 142-150:
`formats`, with the quotation marks. -/
def labelFormats : Series → List (List Char)
  | .geo => ["\"F14.6\"", "\"F14.6\"", "\"F14.6\"", "\"F14.6\"", "\"F12.6\"", "\"F12.6\"", "\"F12.6\"", "\"F16.6\"", "\"F14.6\"", "\"F14.6\"",
      "\"F14.6\"", "\"F14.6\"", "\"F16.6\"", "\"F16.6\"", "\"F16.6\"", "\"F14.6\"", "\"F14.6\"", "\"F14.6\"", "\"F12.6\""].map String.toList
  | .geoUl => ["\"F14.6\"", "\"F14.6\"", "\"F14.6\"", "\"F14.6\"", "\"F12.6\"", "\"F12.6\"", "\"F12.6\"", "\"F16.6\"", "\"F14.6\"", "\"F14.6\"",
      "\"F14.6\"", "\"F14.6\"", "\"F16.6\"", "\"F16.6\"", "\"F16.6\"", "\"F14.6\"", "\"F14.6\"", "\"F14.6\"", "\"F12.6\"",
      "\"F14.6\"", "\"F14.6\"", "\"F14.6\"", "\"F12.6\"", "\"F12.6\""].map String.toList
  | .cal => ["\"F14.6\"", "\"F20.6\"", "\"F10.6\"", "\"F14.6\""].map String.toList
  | .dlp => ["\"F14.6\"", "\"F10.6\"", "\"F10.6\"", "\"F12.6\"", "\"F12.6\"", "\"E14.6\"", "\"E14.6\"", "\"F12.6\"", "\"E14.6\"", "\"F14.6\"",
      "\"F14.6\"", "\"F14.6\"", "\"F12.6\""].map String.toList
  | .tau => ["\"F14.6\"", "\"F10.6\"", "\"F10.6\"", "\"F12.6\"", "\"F12.6\"", "\"E14.6\"", "\"E14.6\"", "\"F12.6\"", "\"E14.6\"", "\"F14.6\"",
      "\"F14.6\"", "\"F14.6\"", "\"F12.6\""].map String.toList
  | .dlpUl => ["\"F14.6\"", "\"F10.6\"", "\"F10.6\"", "\"F12.6\"", "\"F12.6\"", "\"E14.6\"", "\"E14.6\"", "\"F12.6\"", "\"E14.6\"", "\"F14.6\"",
      "\"F14.6\"", "\"F14.6\"", "\"F12.6\"", "\"F14.6\"", "\"F14.6\"", "\"F14.6\"", "\"F12.6\"", "\"F12.6\""].map String.toList
  | .tauUl => ["\"F14.6\"", "\"F10.6\"", "\"F10.6\"", "\"F12.6\"", "\"F12.6\"", "\"E14.6\"", "\"E14.6\"", "\"F12.6\"", "\"E14.6\"", "\"F14.6\"",
      "\"F14.6\"", "\"F14.6\"", "\"F12.6\"", "\"F14.6\"", "\"F14.6\"", "\"F14.6\"", "\"F12.6\"", "\"F12.6\""].map String.toList

/-- rss_ringoccs/tools/pds3_write_series_v2.py 391-394: the width in a format of the label; no point is a `ValueError`. -/
def width (fmt : List Char) : Py Nat :=
  if '.' ∈ fmt then pyIntDigits ((fmt.takeWhile fun c => decide (c ≠ '.')).drop 2) else .error .value

/-- `np.cumsum`. -/
def cumsum : Nat → List Nat → List Nat
  | _, [] => []
  | s, x :: xs => (s + x) :: cumsum (s + x) xs

/-- rss_ringoccs/tools/pds3_write_series_v2.py 387-404: `record_bytes` (as a number), `bytes_list` and `start_bytes_list`. -/
def recordBytes (fmts : List (List Char)) : Py (Nat × List Nat × List Nat) := do
  let bytes ← fmts.mapM width
  let wc := 1 :: bytes.map (· + 1)
  pure (bytes.sum + (fmts.length - 1) + 2, bytes, (cumsum 0 wc).dropLast)

/-- A line of a table: rss_ringoccs/tools/pds3_geo_series.py 48-98, pds3_cal_series.py 36-41, pds3_dlp_series.py 51-92,
pds3_tau_series.py 45-99. -/
def line (sci : Nat → ℚ → List Char) (str : ℚ → List Char) (k : Series) (val : String → ℚ) : Py (List Char) :=
  match pieces ((formatStr k).length + 1) (formatStr k) with
  | none => .error .value
  | some ps => percent sci str ps ((written k).map (fun c => Arg.num (val c)) ++ [Arg.txt ['\r', '\n']])

end Verif.Pds
