import Verif.Model.Trim
import Verif.Model.LabelText
import Verif.Model.Label
import Mathlib.Algebra.Order.Floor.Ring

/-!
# The label of a table that was merged from pieces

Simplifications: numbers are rational; the labels hold no null characters; the table has at least two rows (as `data[:,0]` needs);
the texts that the code searches for and writes are given here as keyword and number of columns, with the same characters.
-/
namespace Verif.Merge
open Verif.Rsr Verif.Out Verif.Pds

/-- rss_ringoccs/tools/rss_ringoccs_local_tools.py 2155-2161: the merged table.  Each piece is read as text, so that `'\r\n'` becomes `'\n'`,
and written as it is. -/
def mergedText (pieces : List (List Char)) : List Char := (pieces.map universal).flatten

/-- rss_ringoccs/tools/rss_ringoccs_local_tools.py 2164-2166: `file_records`. -/
def records (pieces : List (List Char)) : Nat := (universal (mergedText pieces)).count '\n'

/-- rss_ringoccs/tools/rss_ringoccs_local_tools.py 2177-2184: columns of the merged table. -/
structure Tab where
  radius : List ℚ
  longitude : List ℚ
  azimuth : List ℚ
  oet : List ℚ
  ret : List ℚ
  scet : List ℚ
  elevation : List ℚ

/-- rss_ringoccs/tools/rss_ringoccs_local_tools.py 3634-3639: `spm2date`. -/
def spm2date (year doy : List Char) (t : ℚ) : List Char :=
  let hrs := ⌊t / 3600⌋
  let mins := ⌊t / 60⌋ % 60
  let secs := ⌊t - 60 * ⌊t / 60⌋⌋
  year ++ '-' :: doy ++ 'T' :: zfill2 hrs ++ ':' :: zfill2 mins ++ ':' :: zfill2 secs

/-- `np.min`. -/
def least (l : List ℚ) : ℚ := l.tail.foldl min (l.headD 0)

/-- `np.max`. -/
def greatest (l : List ℚ) : ℚ := l.tail.foldl max (l.headD 0)

/-- The lines that are changed. -/
inductive Key where
  | fileRecords | rows | minRadius | maxRadius | minSampling | maxSampling | minLongitude | maxLongitude | minAzimuth | maxAzimuth
  | series | productId | start | stop | ringStart | ringStop | craftStart | craftStop
  deriving DecidableEq, Repr

/-- rss_ringoccs/tools/rss_ringoccs_local_tools.py 2218-2253: the keyword. -/
def Key.name : Key → List Char
  | .fileRecords => "FILE_RECORDS".toList
  | .rows => "ROWS".toList
  | .minRadius => "MINIMUM_RING_RADIUS".toList
  | .maxRadius => "MAXIMUM_RING_RADIUS".toList
  | .minSampling => "MINIMUM_SAMPLING_PARAMETER".toList
  | .maxSampling => "MAXIMUM_SAMPLING_PARAMETER".toList
  | .minLongitude => "MINIMUM_RING_LONGITUDE".toList
  | .maxLongitude => "MAXIMUM_RING_LONGITUDE".toList
  | .minAzimuth => "MINIMUM_OBSERVED_RING_AZIMUTH".toList
  | .maxAzimuth => "MAXIMUM_OBSERVED_RING_AZIMUTH".toList
  | .series => "^SERIES".toList
  | .productId => "PRODUCT_ID".toList
  | .start => "START_TIME".toList
  | .stop => "STOP_TIME".toList
  | .ringStart => "RING_EVENT_START_TIME".toList
  | .ringStop => "RING_EVENT_STOP_TIME".toList
  | .craftStart => "SPACECRAFT_EVENT_START_TIME".toList
  | .craftStop => "SPACECRAFT_EVENT_STOP_TIME".toList

/-- rss_ringoccs/tools/rss_ringoccs_local_tools.py 2218-2253: the keyword as it is written before the sign `=`. -/
def Key.field : Key → List Char
  | .rows => ' ' :: ' ' :: ljust 28 Key.rows.name
  | .minSampling => ' ' :: ' ' :: ljust 28 Key.minSampling.name
  | .maxSampling => ' ' :: ' ' :: ljust 28 Key.maxSampling.name
  | k => ljust 37 k.name

/-- rss_ringoccs/tools/rss_ringoccs_local_tools.py 2218-2253: what is searched for in a line. -/
def Key.search : Key → List Char
  | .productId => ljust 37 Key.productId.name ++ ['=']
  | .start => ljust 37 Key.start.name ++ ['=']
  | .stop => ljust 37 Key.stop.name ++ ['=']
  | .ringStart => ljust 37 Key.ringStart.name ++ ['=']
  | .ringStop => ljust 37 Key.ringStop.name ++ ['=']
  | .craftStart => ljust 37 Key.craftStart.name ++ ['=']
  | .craftStop => ljust 37 Key.craftStop.name ++ ['=']
  | k => k.name

/-- The order of the tests, rss_ringoccs/tools/rss_ringoccs_local_tools.py 2218-2253. -/
def keys : List Key :=
  [.fileRecords, .rows, .minRadius, .maxRadius, .minSampling, .maxSampling, .minLongitude, .maxLongitude, .minAzimuth, .maxAzimuth,
   .series, .productId, .start, .stop, .ringStart, .ringStop, .craftStart, .craftStop]

/-- rss_ringoccs/tools/rss_ringoccs_local_tools.py 2218-2253: the new values; `n` is `file_records`, `out` the name of the merged table. -/
def newValue (t : Tab) (n : Nat) (out year doy : List Char) : Key → List Char
  | .fileRecords => decimal n
  | .rows => decimal n
  | .minRadius => pad 10 (fixed 3 (least t.radius)) ++ "   <km>".toList
  | .maxRadius => pad 10 (fixed 3 (greatest t.radius)) ++ "   <km>".toList
  | .minSampling => pad 10 (fixed 3 (least t.radius))
  | .maxSampling => pad 10 (fixed 3 (greatest t.radius))
  | .minLongitude => pad 8 (fixed 4 (least t.longitude)) ++ "   <deg>".toList
  | .maxLongitude => pad 8 (fixed 4 (greatest t.longitude)) ++ "   <deg>".toList
  | .minAzimuth => pad 8 (fixed 4 (least t.azimuth)) ++ "   <deg>".toList
  | .maxAzimuth => pad 8 (fixed 4 (greatest t.azimuth)) ++ "   <deg>".toList
  | .series => '"' :: out ++ ['"']
  | .productId => '"' :: out ++ ['"']
  | .start => spm2date year doy (t.oet.headD 0)
  | .stop => spm2date year doy (t.oet.getLastD 0)
  | .ringStart => spm2date year doy (t.ret.headD 0)
  | .ringStop => spm2date year doy (t.ret.getLastD 0)
  | .craftStart => spm2date year doy (t.scet.headD 0)
  | .craftStop => spm2date year doy (t.scet.getLastD 0)

/-- The new line, with the space at its end. -/
def newLine (value : Key → List Char) (k : Key) : List Char := k.field ++ ['=', ' '] ++ value k ++ [' ']

/-- rss_ringoccs/tools/rss_ringoccs_local_tools.py 2211-2253: one pass of the loop.  All tests look at the old line, the last one that holds decides. -/
def editLine (value : Key → List Char) (line : List Char) : List Char :=
  keys.foldl (fun c k => if k.search <:+: line then newLine value k else c) line

/-- rss_ringoccs/tools/rss_ringoccs_local_tools.py 2209: `np.copy` makes an array of texts of fixed length, that of the longest line;
what is assigned to an element is cut there. -/
def width (first : List (List Char)) : Nat := (first.map List.length).foldl max 0

/-- rss_ringoccs/tools/rss_ringoccs_local_tools.py 2208-2262: the lines of the merged label from the lines of the labels of the first and the last
piece; the last character of a line is replaced by the end of the line. -/
def labelLines (value : Key → List Char) (first last : List (List Char)) : List (List Char) :=
  first.mapIdx fun i l => (if i < last.length then (editLine value l).take (width first) else l).dropLast ++ ['\r', '\n']

end Verif.Merge
