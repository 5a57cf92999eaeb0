import Verif.Model.Rsr

/-!
# The text of labels

Simplifications: texts are lists of characters; the file is the text written to it; dictionaries are lists in the order of their keys, and
`key_order` is that order; the history is given as three texts: description, lines of the user, rest.
-/
namespace Verif.Pds
open Verif.Rsr

/-- `s.split(c)` for a separator of one character. -/
def splitOn (c : Char) : List Char → List (List Char)
  | [] => [[]]
  | x :: xs =>
    if x = c then [] :: splitOn c xs
    else
      match splitOn c xs with
      | [] => [[x]]
      | l :: ls => (x :: l) :: ls

/-- `s.ljust(n)`. -/
def ljust (n : Nat) (s : List Char) : List Char := s ++ List.replicate (n - s.length) ' '

/-- `cr`. -/
def cr : List Char := ['\r', '\n']

/-- What a label is made of. -/
structure Label where
  /-- `alignment_column` -/
  npad0 : Nat
  /-- `series_alignment_column` -/
  npad1 : Nat
  /-- `string_delimiter` -/
  sd : Char
  /-- `keywords_values`; `none` is `'BLANK'` -/
  keywords : List (Option (List (List Char × List Char)))
  /-- `NAIF_TOOLKIT_VERSION` -/
  naif : List Char
  /-- `SPICE_FILE_NAME`; `none` is the empty text -/
  kernels : Option (List (List Char))
  description : List Char
  /-- `history`; `none` is empty -/
  history : Option (List Char × List (List Char × List Char) × List Char)
  series : List (List Char × List Char)
  objectKeys : List (List Char)
  objectValues : List (List (List Char))

/-- A line `key = value`. -/
def statement (pad : Nat) (key val : List Char) : List Char := ljust pad key ++ ['=', ' '] ++ val ++ cr

/-- rss_ringoccs/tools/pds3_write_series_v2.py 29-40: keywords and values. -/
def headerText (pad : Nat) (kws : List (Option (List (List Char × List Char)))) : List Char :=
  kws.flatMap fun k =>
    match k with
    | none => cr
    | some l => l.flatMap fun kv => statement pad kv.1 kv.2

/-- rss_ringoccs/tools/pds3_write_series_v2.py 60-75: the lines of the kernels after the first and last one got their braces; `first` is true for
index 0. -/
def kernelLines (pad : Nat) (single first : Bool) : List (List Char) → List Char
  | [] => []
  | [k] =>
    if first then ljust pad "SPICE_FILE_NAME".toList ++ ['=', ' '] ++ k ++ (if single then [] else [',']) ++ cr
    else List.replicate (pad + 3) ' ' ++ k ++ cr
  | k :: ks =>
    (if first then ljust pad "SPICE_FILE_NAME".toList ++ ['=', ' '] ++ k ++ (if single then [] else [',']) ++ cr
    else List.replicate (pad + 3) ' ' ++ k ++ [','] ++ cr) ++ kernelLines pad single false ks

/-- rss_ringoccs/tools/pds3_write_series_v2.py 57-58: `l[-1] = l[-1] + '}'`. -/
def closeLast : List (List Char) → List (List Char)
  | [] => []
  | [k] => [k ++ ['}']]
  | k :: ks => k :: closeLast ks

/-- rss_ringoccs/tools/pds3_write_series_v2.py 51-75: kernels; an empty list is an `IndexError`. -/
def kernelText (pad : Nat) : Option (List (List Char)) → Py (List Char)
  | none => .ok []
  | some [] => .error .index
  | some (k :: ks) => .ok (kernelLines pad (ks.isEmpty) true (closeLast (('{' :: k) :: ks)))

/-- rss_ringoccs/tools/pds3_write_series_v2.py 79-91: a value of several lines; `head` is what comes before the first, `indent` before the others. -/
def severalLines (sd : Char) (head indent val : List Char) : List Char :=
  match splitOn sd val with
  | [] => []
  | l :: ls => head ++ l ++ cr ++ ls.flatMap fun m => indent ++ m ++ cr

/-- rss_ringoccs/tools/pds3_write_series_v2.py 95-166: the history and the quotation mark after it. -/
def historyText (pad : Nat) (sd : Char) (h : Option (List Char × List (List Char × List Char) × List Char)) : List Char :=
  (match h with
  | none => []
  | some (desc, user, rest) =>
    severalLines sd (ljust pad "PROCESSING_HISTORY_TEXT".toList ++ ['=', ' '] ++ ['"']) [] desc ++ cr ++ "User history:".toList ++ cr ++
      (user.flatMap fun kv => List.replicate 4 ' ' ++ statement 24 kv.1 kv.2) ++ rest) ++ ['"'] ++ cr

/-- rss_ringoccs/tools/pds3_write_series_v2.py 174-192: the series (a text without delimiter has one line). -/
def seriesText (pad : Nat) (sd : Char) (s : List (List Char × List Char)) : List Char :=
  s.flatMap fun kv =>
    if kv.1 = "OBJECT".toList then statement (pad + 2) kv.1 kv.2
    else severalLines sd ([' ', ' '] ++ ljust pad kv.1 ++ ['=', ' ']) [' ', ' '] kv.2

/-- rss_ringoccs/tools/pds3_write_series_v2.py 212-225: value `k` of an object; a missing value is an `IndexError`; empty values are left out. -/
def objectLine (pad : Nat) (sd : Char) (keys : List (List Char)) (vals : List (List (List Char))) (obj k : Nat) : Py (List Char) :=
  match (vals[k]?).bind (·[obj]?) with
  | none => .error .index
  | some v =>
    if v = [] then .ok []
    else .ok (severalLines sd (List.replicate 4 ' ' ++ ljust (pad - 2) (keys.getD k []) ++ ['=', ' ']) (List.replicate 4 ' ') v)

/-- rss_ringoccs/tools/pds3_write_series_v2.py 207-227: one object. -/
def objectText (pad : Nat) (sd : Char) (keys : List (List Char)) (vals : List (List (List Char))) (obj : Nat) : Py (List Char) := do
  let lines ← (List.range keys.length).mapM (objectLine pad sd keys vals obj)
  pure (cr ++ [' ', ' '] ++ ljust pad "OBJECT".toList ++ "= COLUMN".toList ++ cr ++ lines.flatten ++ [' ', ' '] ++
    ljust pad "END_OBJECT".toList ++ "= COLUMN".toList ++ cr)

/-- rss_ringoccs/tools/pds3_write_series_v2.py 202: `len(obj_vals[0])`. -/
def objectCount : List (List (List Char)) → Py Nat
  | [] => .error .index
  | v :: _ => .ok v.length

/-- rss_ringoccs/tools/pds3_write_series_v2.py 13-238: `pds3_write_series_lbl`. -/
def labelText (l : Label) : Py (List Char) := do
  let kern ← kernelText l.npad0 l.kernels
  let n ← objectCount l.objectValues
  let objs ← (List.range n).mapM (objectText l.npad1 l.sd l.objectKeys l.objectValues)
  pure (headerText l.npad0 l.keywords ++
    (if l.naif = [] then [] else statement l.npad0 "NAIF_TOOLKIT_VERSION".toList l.naif) ++ kern ++ cr ++
    severalLines l.sd (ljust l.npad0 "DESCRIPTION".toList ++ ['=', ' ']) [] l.description ++ cr ++
    historyText l.npad0 l.sd l.history ++ cr ++ seriesText l.npad1 l.sd l.series ++ objs.flatten ++ cr ++
    statement (l.npad1 + 2) "END_OBJECT".toList "SERIES".toList ++ cr ++ "END".toList ++ cr)

/-- A value in the arguments of a history: a history (a dictionary) or another value (its text). -/
inductive ArgVal where
  | hist
  | text (s : List Char)
deriving DecidableEq, Repr

/-- rss_ringoccs/tools/pds3_write_series_v2.py 344-359: the lines of a long value; `i` is the index of the line, `n` their number. -/
def longLines (kwd key : List Char) (first last : Bool) (n : Nat) : Nat → List (List Char) → List Char
  | _, [] => []
  | i, l :: ls =>
    (if i = 0 ∧ first then
      List.replicate 4 ' ' ++ ljust 18 kwd ++ ['=', ' '] ++ ['{'] ++ key ++ [':', ' '] ++ l ++
        (if key = "freespace_spm".toList then [] else [',']) ++ cr
    else if i = 0 ∧ ¬ first then List.replicate 4 ' ' ++ List.replicate 21 ' ' ++ key ++ [':', ' '] ++ l ++ [','] ++ cr
    else if i = n - 1 ∧ last then List.replicate 4 ' ' ++ List.replicate (18 + 3 + (key.length + 2)) ' ' ++ l ++ ['}'] ++ cr
    else List.replicate 4 ' ' ++ List.replicate (18 + 3 + (key.length + 2)) ' ' ++ l ++ [','] ++ cr) ++
    longLines kwd key first last n (i + 1) ls

/-- rss_ringoccs/tools/pds3_write_series_v2.py 327-361: `history_loop_over_long_inputs` for keys other than `freespace_spm` (whose line breaks are
replaced too). -/
def longInput (kwd key s : List Char) (first last : Bool) : List Char :=
  let lines := splitOn ',' s
  longLines kwd key first last lines.length 0 lines

/-- rss_ringoccs/tools/pds3_write_series_v2.py 270-321: entry `i` of `n`. -/
def argText (kwd : List Char) (written : List (List Char)) (n i : Nat) (e : List Char × ArgVal) : List Char :=
  match e.2 with
  | .hist =>
    let pstr := if e.1 ∈ written then "see history above".toList else "see history below".toList
    if i = 0 then List.replicate 4 ' ' ++ ljust 18 kwd ++ ['=', ' '] ++ ['{'] ++ e.1 ++ [':', ' '] ++ pstr ++ [','] ++ cr
    else if i = n - 1 then List.replicate 4 ' ' ++ List.replicate 21 ' ' ++ e.1 ++ [':', ' '] ++ pstr ++ ['}'] ++ cr
    else List.replicate 4 ' ' ++ List.replicate 21 ' ' ++ e.1 ++ [':', ' '] ++ pstr ++ [','] ++ cr
  | .text s =>
    let nchars := e.1.length + 1 + s.length
    if i = 0 then
      if nchars > 40 then longInput kwd e.1 s true false
      else List.replicate 4 ' ' ++ ljust 18 kwd ++ ['=', ' '] ++ ['{'] ++ e.1 ++ [':', ' '] ++ s ++ (if i = n - 1 then ['}'] else [',']) ++ cr
    else if i = n - 1 then
      if nchars > 40 then longInput kwd e.1 s false true
      else List.replicate 4 ' ' ++ List.replicate 21 ' ' ++ e.1 ++ [':', ' '] ++ s ++ ['}'] ++ cr
    else
      if nchars > 40 then longInput kwd e.1 s false false
      else List.replicate 4 ' ' ++ List.replicate 21 ' ' ++ e.1 ++ [':', ' '] ++ s ++ [','] ++ cr

/-- rss_ringoccs/tools/pds3_write_series_v2.py 267-321: all arguments; `written` are the histories above. -/
def argsFrom (kwd : List Char) (written : List (List Char)) (n : Nat) : Nat → List (List Char × ArgVal) → List Char
  | _, [] => []
  | i, e :: es => argText kwd written n i e ++ argsFrom kwd written n (i + 1) es

/-- All arguments of a keyword. -/
def argsText (kwd : List Char) (written : List (List Char)) (es : List (List Char × ArgVal)) : List Char :=
  argsFrom kwd written es.length 0 es

end Verif.Pds
