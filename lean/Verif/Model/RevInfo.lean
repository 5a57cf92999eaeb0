import Verif.Model.OutName
import Verif.Model.LabelText

/-!
# What is known about an occultation from its DLP file: rss_ringoccs/tools/pds3_tau_series.py 922-1003

Simplifications: texts are lists of characters; a file is the list of its lines, without the ends of lines.
-/
namespace Verif.Rev
open Verif.Rsr Verif.Out Verif.Pds

/-- `s.index(p)`. -/
def index (p : List Char) : List Char → Py Nat
  | [] => if p = [] then .ok 0 else .error .value
  | c :: s =>
    if p <+: c :: s then .ok 0
    else do
      let i ← index p s
      pure (i + 1)

/-- `s[i:j]` for `0 ≤ i ≤ j`. -/
def slice (i j : Nat) (s : List Char) : List Char := (s.drop i).take (j - i)

/-- `s[i]`. -/
def item (i : Nat) (s : List Char) : Py Char :=
  match s[i]? with
  | some c => .ok c
  | none => .error .index

/-- `os.path.basename`. -/
def basename (s : List Char) : List Char := (s.reverse.takeWhile fun c => decide (c ≠ '/')).reverse

/-- rss_ringoccs/tools/pds3_tau_series.py 923 (938, 953, 968): the name of the label. -/
def labelName (dlp : List Char) : Py (List Char) := do
  let i ← index "TAB".toList dlp
  pure (slice 0 i dlp ++ "LBL".toList)

/-- rss_ringoccs/tools/pds3_tau_series.py 926-934: the first line of the label with the keyword. -/
def inLabel (key : List Char) (lines : List (List Char)) : Py (List Char) :=
  match lines.find? fun l => decide (key <:+: l) with
  | none => .ok "\"Unknown\"".toList
  | some l =>
    match splitOn '"' l with
    | _ :: v :: _ => .ok ('"' :: v ++ ['"'])
    | _ => .error .index

/-- rss_ringoccs/tools/pds3_tau_series.py 922-935 for `SOURCE_PRODUCT_ID`, 937-950 for `PLANETARY_OCCULTATION_FLAG`, 952-965
for `RING_OCCULTATION_DIRECTION`, 967-980 for `RING_PROFILE_DIRECTION`. -/
def fromDlp (fs : List Char → Option (List (List Char))) (key dlp : List Char) : Py (List Char) := do
  let n ← labelName dlp
  match fs n with
  | none => pure "\"Unknown\"".toList
  | some lines => inLabel key lines

/-- The dictionary `rev_info`; a key that is missing is `none`. -/
structure Info where
  rsrFile : List Char
  band : List Char
  year : List Char
  doy : List Char
  dsn : List Char
  ulDsn : Option (List Char)
  occDir : List Char
  profDir : List Char
  revNum : List Char
  flag : List Char
  deriving DecidableEq, Repr

/-- rss_ringoccs/tools/pds3_tau_series.py 982-1003: `get_rev_info_from_dlp`. -/
def revInfoFromDlp (fs : List Char → Option (List (List Char))) (dlp : List Char) : Py Info := do
  let b := basename dlp
  let band ← item 13 b
  let _ ← item 17 b
  let r ← index "Rev".toList dlp
  let rsr ← fromDlp fs "SOURCE_PRODUCT_ID".toList dlp
  let occ ← fromDlp fs "RING_OCCULTATION_DIRECTION".toList dlp
  let prof ← fromDlp fs "RING_PROFILE_DIRECTION".toList dlp
  let flag ← fromDlp fs "PLANETARY_OCCULTATION_FLAG".toList dlp
  pure ⟨rsr, ['"', band, '"'], slice 4 8 b, slice 9 12 b, slice 14 16 b, none, occ, prof, slice (r + 3) (r + 6) dlp, flag⟩

/-- rss_ringoccs/tools/write_output_files.py 139-142: the station or stations in the name of a file; `s.split('-')[-1]`. -/
def stations (q : Info) : Py (List Char) := do
  let y ← pyIntDigits q.year
  if y > 2010 then
    match q.ulDsn with
    | none => .error .key
    | some u => pure ((splitOn '-' q.dsn).getLastD [] ++ (splitOn '-' u).getLastD [])
  else pure ((splitOn '-' q.dsn).getLastD [])

/-- rss_ringoccs/tools/write_output_files.py 137: `rev_info['band'].split('"')[1]`. -/
def bandLetter (q : Info) : Py (List Char) :=
  match splitOn '"' q.band with
  | _ :: v :: _ => .ok v
  | _ => .error .index

/-- rss_ringoccs/tools/write_output_files.py 160-161: `filestr` for the direction `d`. -/
def fileStr (q : Info) (d : Char) : Py (List Char) := do
  let b ← bandLetter q
  let s ← stations q
  pure ("RSS_".toList ++ q.year ++ '_' :: q.doy ++ '_' :: b ++ s ++ ['_', d])

/-- rss_ringoccs/tools/write_output_files.py 163-164, 170, 215-216: the whole name of a file; `c` is `pd2`, `t` what comes after
`filestr` in the title (capital letters already), `ext` the ending. -/
def path (loc rev c : List Char) (d : Char) (filestr t ext : List Char) : List Char :=
  loc ++ "Rev".toList ++ rev ++ "/Rev".toList ++ rev ++ c ++ [d] ++ "/Rev".toList ++ rev ++ c ++ [d] ++ '_' :: filestr ++ '/' :: filestr ++ t ++ ext

/-- rss_ringoccs/tools/pds3_dlp_series.py 176: `SOURCE_PRODUCT_ID` of a DLP label. -/
def sourceDlp (q : Info) : List Char := '"' :: q.rsrFile.map upperC ++ ['"']

/-- rss_ringoccs/tools/pds3_tau_series.py 191-192: `SOURCE_PRODUCT_ID` of a TAU label. -/
def sourceTau (q : Info) : List Char := q.rsrFile.map upperC

/-- rss_ringoccs/tools/pds3_dlp_series.py 245-246, 255-258, 269-284, 310-313, 324-332 and 460-471: the keys of the header of a DLP label,
in order; `none` is an empty line. -/
def dlpKeys : List (Option (List Char)) :=
  ([some "PDS_VERSION_ID", some "RECORD_TYPE", some "RECORD_BYTES", some "FILE_RECORDS", some "^SERIES", none, some "DATA_SET_ID",
    some "RING_OBSERVATION_ID", some "PRODUCT_ID", some "PRODUCT_TYPE", some "PRODUCT_CREATION_TIME", some "PRODUCER_ID",
    some "SOURCE_PRODUCT_ID", none, some "INSTRUMENT_HOST_NAME", some "INSTRUMENT_HOST_ID", some "INSTRUMENT_NAME",
    some "INSTRUMENT_ID", some "MISSION_PHASE_NAME", some "TARGET_NAME", some "START_TIME", some "STOP_TIME",
    some "RING_EVENT_START_TIME", some "RING_EVENT_STOP_TIME", some "SPACECRAFT_EVENT_START_TIME", some "SPACECRAFT_EVENT_STOP_TIME",
    some "SPACECRAFT_CLOCK_START_COUNT", some "SPACECRAFT_CLOCK_STOP_COUNT", some "REVOLUTION_NUMBER", some "DSN_STATION_NUMBER", none,
    some "OBSERVATION_TYPE", some "OCCULTATION_TYPE", some "FEATURE_NAME", some "PLANETARY_OCCULTATION_FLAG",
    some "RING_OCCULTATION_DIRECTION", some "RING_PROFILE_DIRECTION", some "FREQUENCY_BAND", some "WAVELENGTH", none,
    some "RADIAL_RESOLUTION", some "RADIAL_SAMPLING_INTERVAL", some "MINIMUM_RING_RADIUS", some "MAXIMUM_RING_RADIUS",
    some "MINIMUM_RING_LONGITUDE", some "MAXIMUM_RING_LONGITUDE", some "MINIMUM_OBSERVED_RING_AZIMUTH",
    some "MAXIMUM_OBSERVED_RING_AZIMUTH", some "MINIMUM_OBSERVED_RING_ELEVATION", some "MAXIMUM_OBSERVED_RING_ELEVATION",
    some "LOWEST_DETECTABLE_OPACITY", some "HIGHEST_DETECTABLE_OPACITY", none] : List (Option String)).map (Option.map String.toList)

/-- rss_ringoccs/tools/pds3_write_series_v2.py 29-40: the lines of the header (`headerText` without the ends of lines), for the values `val`;
37 is `alignment_column` (pds3_dlp_series.py 138). -/
def dlpHeader (val : List Char → List Char) : List (List Char) :=
  dlpKeys.map fun k =>
    match k with
    | none => []
    | some k => ljust 37 k ++ ['=', ' '] ++ val k

/-- rss_ringoccs/tools/pds3_tau_series.py 849-854 (1014-1019): the lines of the history in a DLP label; `istart` and `istop` as far as they
are set. -/
def historyBounds : Nat → Option Nat → List (List Char) → Option Nat × Option Nat
  | _, a, [] => (a, none)
  | i, a, l :: ls =>
    let a := if "rsr_inst history:".toList <+: l then some i else a
    if "\"".toList <+: l then (a, some i) else historyBounds (i + 1) a ls

/-- rss_ringoccs/tools/pds3_tau_series.py 855 (1020): `contents[istart:istop]`. -/
def priorHistory (lines : List (List Char)) : Py (List (List Char)) :=
  match historyBounds 0 none lines with
  | (some a, some b) => .ok ((lines.drop a).take (b - a))
  | _ => .error .unboundLocal

end Verif.Rev
