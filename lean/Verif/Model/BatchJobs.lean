import Verif.Model.WebFiles
import Verif.Model.RevInfo
import Verif.Model.ResName
import Mathlib.Data.Rat.Defs

/-!
# The programs of a parallel batch: what is written, what they look for, and what they do with what they find

pipeline/construct_batch_parallel_CSVtoTAU_20260130.py fills a template for every job; the filled programs,
pipeline/batch_parallel_CSVtoTAU_template-20260130a.py, look for their files and reconstruct; pipeline/edge_fit_batch.py looks for the GEO
file of a TAU file.

Simplifications: texts are lists of characters; an exception is `none`; a search with `glob` gives the files in some order, within one
directory.
-/
namespace Verif.Jobs
open Verif Verif.Web Verif.Rev Verif.Out

/-! ## Filling the template -/

/-- A keyword as it stands in the template. -/
def mark (k : List Char) : List Char := '$' :: (k ++ ['$'])

/-- The keywords in the order in which they are replaced, each with what the line must contain for that:
pipeline/construct_batch_parallel_CSVtoTAU_20260130.py 162-233. -/
def keywords : List (List Char × List Char) :=
  [("$DESCRIPTION".toList, "DESCRIPTION".toList), ("$GEO_FILEPATH$".toList, "GEO_FILEPATH".toList),
   ("$CAL_FILEPATH$".toList, "CAL_FILEPATH".toList), ("$DLP_FILEPATH$".toList, "DLP_FILEPATH".toList),
   ("$OUTPUT_CREATION_DATE$".toList, "OUTPUT_CREATION_DATE".toList), ("$WTYPE$".toList, "WTYPE".toList),
   ("$RES_KM$".toList, "RES_KM".toList), ("$RES_FACTOR$".toList, "RES_FACTOR".toList), ("$DRHO_KM$".toList, "DRHO_KM".toList),
   ("$REV$".toList, "REV".toList), ("$DIREC$".toList, "DIREC".toList), ("$BAND$".toList, "BAND".toList), ("$DSN$".toList, "DSN".toList),
   ("$PSITYPE$".toList, "PSITYPE".toList), ("$INVERSION_RANGE_MIN$".toList, "INVERSION_RANGE_MIN".toList),
   ("$INVERSION_RANGE_MAX$".toList, "INVERSION_RANGE_MAX".toList), ("$NAME$".toList, "NAME".toList), ("$SILENT$".toList, "SILENT".toList),
   ("$MAX_WORKERS$".toList, "MAX_WORKERS".toList), ("$TRIM_DLP$".toList, "TRIM_DLP".toList),
   ("$PROCESSING_RANGE_MIN$".toList, "PROCESSING_RANGE_MIN".toList), ("$PROCESSING_RANGE_MAX$".toList, "PROCESSING_RANGE_MAX".toList)]

/-- pipeline/construct_batch_parallel_CSVtoTAU_20260130.py 162-164 and so on: one keyword; `val` gives what a keyword is replaced by. -/
def fillStep (val : List Char → List Char) (l : List Char) (k : List Char × List Char) : List Char :=
  if k.1 <:+: l then replaceAll (mark k.2) (val k.2) l else l

/-- pipeline/construct_batch_parallel_CSVtoTAU_20260130.py 162-233: a line of the template. -/
def fillLine (val : List Char → List Char) (line : List Char) : List Char := keywords.foldl (fillStep val) line

/-- pipeline/construct_batch_parallel_CSVtoTAU_20260130.py 158-161: the lines of the program. -/
def fill (val : List Char → List Char) (template : List (List Char)) : List (List Char) := template.map (fillLine val)

/-! ## The jobs -/

/-- What `get_CORSS_8001_TABfiles` returns: rss_ringoccs/tools/rss_ringoccs_local_tools.py 1826-1829; the path itself if there is one only. -/
inductive Found where
  | one (path : List Char)
  | many (paths : List (List Char))

/-- rss_ringoccs/tools/rss_ringoccs_local_tools.py 1811-1825 without a station, so that the direction is not looked at. -/
def matched (archive : List (List Char)) (rev : List Char) : List (List Char) :=
  archive.filter fun p => decide (¬ ['#'] <:+: p) && decide (rev <:+: p)

/-- rss_ringoccs/tools/rss_ringoccs_local_tools.py 1787-1829 without a station. -/
def tabFiles (archive : List (List Char)) (rev : List Char) : Found :=
  match matched archive rev with
  | [p] => .one p
  | l => .many l

/-- `for file in files`: a text is gone through character by character. -/
def Found.each : Found → List (List Char)
  | .one p => p.map fun c => [c]
  | .many l => l

/-- pipeline/construct_batch_parallel_CSVtoTAU_20260130.py 143-153 with `include_all_DSNs`: the stations; an index behind the end of the name
is an exception. -/
def stations (rev : List Char) (dir band : Char) : List (List Char) → Option (List (List Char))
  | [] => some []
  | file :: rest =>
    match (basename file)[13]?, (basename file)[17]? with
    | some b, some d =>
      (stations rev dir band rest).map fun l =>
        if rev <:+: file ∧ band = b ∧ dir = d then (band :: slice 14 16 (basename file)) :: l else l
    | _, _ => none

/-- What is different from job to job. -/
structure Job where
  res : ℚ
  rev : List Char
  dir : Char
  dsn : List Char
deriving DecidableEq, Repr

/-- pipeline/construct_batch_parallel_CSVtoTAU_20260130.py 136-157 for a resolution, a Rev and a direction; one reconstruction type and one
range, as in lines 114-118. -/
def bandJobs (archive : List (List Char)) (res : ℚ) (rev : List Char) (dir : Char) : List Char → Option (List Job)
  | [] => some []
  | band :: bands =>
    if band = 'S' ∧ res < 1 / 5 then bandJobs archive res rev dir bands
    else match stations rev dir band (tabFiles archive rev).each with
      | none => none
      | some l => (bandJobs archive res rev dir bands).map fun r => l.map (fun d => ⟨res, rev, dir, d⟩) ++ r

/-- pipeline/construct_batch_parallel_CSVtoTAU_20260130.py 135-157. -/
def dirJobs (archive : List (List Char)) (res : ℚ) (rev bands : List Char) : List Char → Option (List Job)
  | [] => some []
  | d :: ds => match bandJobs archive res rev d bands with
    | none => none
    | some l => (dirJobs archive res rev bands ds).map fun r => l ++ r

/-- pipeline/construct_batch_parallel_CSVtoTAU_20260130.py 134-157. -/
def revJobs (archive : List (List Char)) (res : ℚ) (bands dirs : List Char) : List (List Char) → Option (List Job)
  | [] => some []
  | v :: vs => match dirJobs archive res v bands dirs with
    | none => none
    | some l => (revJobs archive res bands dirs vs).map fun r => l ++ r

/-- pipeline/construct_batch_parallel_CSVtoTAU_20260130.py 133-157: the jobs in the order in which they are written. -/
def jobs (archive : List (List Char)) (bands dirs : List Char) (revs : List (List Char)) : List ℚ → Option (List Job)
  | [] => some []
  | x :: xs => match revJobs archive x bands dirs revs with
    | none => none
    | some l => (jobs archive bands dirs revs xs).map fun r => l ++ r

/-- pipeline/construct_batch_parallel_CSVtoTAU_20260130.py 131, 235-241: the programs with the jobs that they are for, in the order of the
lines of the shell file; `root` is `outfile_root`. -/
def programs (root : List Char) (l : List Job) : List (List Char × Job) :=
  l.zipIdx.map fun p => (root ++ zfillInt 4 (p.2 : ℤ) ++ ".py".toList, p.1)

/-! ## What a program looks for -/

/-- A pattern of `glob` for a name of a file: `*` stands for any text and `?` for any character; no other special character is used. -/
def glob : List Char → List Char → Bool
  | [], s => s.isEmpty
  | p :: ps, [] => if p = '*' then glob ps [] else false
  | p :: ps, c :: s =>
    if p = '*' then glob ps (c :: s) || glob (p :: ps) s
    else if p = '?' then glob ps s else decide (p = c) && glob ps s
termination_by p s => p.length + s.length

/-- pipeline/batch_parallel_CSVtoTAU_template-20260130a.py 98-111, 113-115 and 148 with the date `*`: the pattern for the DLP file of a
resolution, whose digits are `q`. -/
def dlpPattern (q : List Char) : List Char := '*' :: ("DLP_".toList ++ '*' :: (q ++ "M_".toList ++ '*' :: "_0001.TAB".toList))

/-- What the name `is_processing_range_valid` means: the function of line 23, or the answer assigned in line 191. -/
inductive Meaning where
  | function
  | answer (b : Bool)

/-- A directory with what the searches of lines 149-172 give in it, the range of `update_inversion_range`, the answer of the check, and the
first and the last radius of the DLP file; `none` for a search or a calculation that fails. -/
structure Dir where
  path : List Char
  files : Option (List Char × List Char × List Char)
  range : Option (ℤ × ℤ)
  valid : Bool
  dlp : ℚ × ℚ

/-- pipeline/batch_parallel_CSVtoTAU_template-20260130a.py 146-226 in a directory for the station and direction: the files and the range, or
none for an exception.  `files` is none in a directory without DLP file of the resolution also because `verbose` in line 165 is not defined.
Calling an answer is a `TypeError`. -/
def visit (d : Dir) : Meaning → Option ((List Char × List Char × List Char) × (ℤ × ℤ))
  | .answer _ => none
  | .function =>
    match d.files, d.range with
    | some f, some r =>
      if d.valid = false then none
      else if d.dlp.1 > r.1 ∨ d.dlp.2 < r.1 then none
      else some (f, r)
    | _, _ => none

/-- pipeline/batch_parallel_CSVtoTAU_template-20260130a.py 140-226: the loop over the directories; what the files and the range are at its
end, or none for an exception. -/
def search (string : List Char) : List Dir → Meaning → Option ((List Char × List Char × List Char) × (ℤ × ℤ)) →
    Option (Option ((List Char × List Char × List Char) × (ℤ × ℤ)))
  | [], _, found => some found
  | d :: ds, m, found =>
    if string <:+: d.path then
      match visit d m with
      | none => none
      | some x => search string ds (.answer d.valid) (some x)
    else search string ds m found

/-- pipeline/batch_parallel_CSVtoTAU_template-20260130a.py 140-232: what is reconstructed; without a directory `inversion_range` is not
defined in line 232. -/
def program (string : List Char) (ds : List Dir) : Option ((List Char × List Char × List Char) × (ℤ × ℤ)) :=
  (search string ds .function none).join

/-! ## The GEO file of a TAU file -/

/-- `"_".join(l)`. -/
def joinU : List (List Char) → List Char
  | [] => []
  | [w] => w
  | w :: ws => w ++ '_' :: joinU ws

/-- The length of the elements of `np.array(l, dtype=str)`, to which what is assigned to one of them is cut. -/
def width (l : List (List Char)) : Nat := (l.map List.length).foldl max 0

/-- pipeline/edge_fit_batch.py 61 and 67. -/
def geoName (l : List (List Char)) : List Char := joinU (l.take 5) ++ "_GEO_".toList ++ joinU (l.drop 7)

/-- pipeline/edge_fit_batch.py 63-66 for a name that ends with the version in four characters and `.TAB`: the parts are changed; the digit is
the fifth character from the end, and what is no number is an exception. -/
def previous (l : List (List Char)) : Option (List (List Char)) :=
  match l.reverse with
  | v :: d :: rest =>
    match v.reverse[4]? with
    | none => none
    | some c =>
      if c = '1' then
        if d ≠ [] ∧ d.all isDigit then some (rest.reverse ++ [(zfillInt 0 ((value d : ℤ) - 1)).take (width l), v]) else none
      else if isDigit c then
        some (rest.reverse ++ [d, ("000".toList ++ zfillInt 0 ((value [c] : ℤ) - 1) ++ ".TAB".toList).take (width l)])
      else none
  | _ => none

/-- pipeline/edge_fit_batch.py 60-67: the GEO file that is read; `ex` tells which files there are. -/
def geoFile (ex : List Char → Bool) (file : List Char) : Option (List Char) :=
  let l := Pds.splitOn '_' file
  if ex (geoName l) then some (geoName l) else (previous l).map geoName

end Verif.Jobs
