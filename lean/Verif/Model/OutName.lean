import Verif.Model.Rsr

/-!
# Names of the output files

Simplifications: texts are lists of characters, those of the arguments contain no `/`; `int` accepts digits only (Python also accepts
signs, blanks and underscores); `upper` changes ASCII letters.
-/
namespace Verif.Out
open Verif.Rsr

/-- `str(n)`. -/
def decimal (n : Nat) : List Char := if n < 10 then [Char.ofNat (48 + n)] else decimal (n / 10) ++ [Char.ofNat (48 + n % 10)]

/-- A decimal digit. -/
def isDigit (c : Char) : Bool := decide (48 ≤ c.toNat) && decide (c.toNat ≤ 57)

/-- The number that digits denote. -/
def value (s : List Char) : Nat := s.foldl (fun n c => 10 * n + (c.toNat - 48)) 0

/-- `int(s)`. -/
def pyIntDigits (s : List Char) : Py Nat := if s ≠ [] ∧ s.all isDigit then .ok (value s) else .error .value

/-- ASCII `upper`. -/
def upperC (c : Char) : Char := if 97 ≤ c.toNat ∧ c.toNat ≤ 122 then Char.ofNat (c.toNat - 32) else c

/-- `x.split('_')[-1]`. -/
def lastPart (x : List Char) : List Char := (x.reverse.takeWhile fun c => decide (c ≠ '_')).reverse

/-- `x.split('_')[-2]`. -/
def beforeLast (x : List Char) : Py (List Char) :=
  match x.reverse.dropWhile fun c => decide (c ≠ '_') with
  | [] => .error .index
  | _ :: r => .ok (r.takeWhile fun c => decide (c ≠ '_')).reverse

/-- rss_ringoccs/tools/write_output_files.py 186-187: the numbers of the files of this type and day. -/
def sqn0 (filtyp day : List Char) : List (List Char) → Py (List (List Char))
  | [] => .ok []
  | x :: xs =>
    if filtyp.map upperC <:+: x then do
      let d ← beforeLast x
      let r ← sqn0 filtyp day xs
      pure (if d = day then (d ++ (lastPart x).take 4) :: r else r)
    else sqn0 filtyp day xs

/-- The last four characters. -/
def lastFour (s : List Char) : List Char := s.drop (s.length - 4)

/-- rss_ringoccs/tools/write_output_files.py 174-210: `seq_num`; `files` is `none` if the directory does not exist. -/
def seqNum (filtyp day : List Char) (files : Option (List (List Char))) : Py (List Char) :=
  match files with
  | none => .ok "0001".toList
  | some l =>
    let dirfiles := l.filter fun x => decide (x.head? ≠ some '.')
    if dirfiles = [] then .ok "0001".toList
    else do
      let s ← sqn0 filtyp day dirfiles
      if s = [] then pure "0001".toList
      else do
        let ns ← s.mapM pyIntDigits
        pure (lastFour (decimal (ns.foldl max 0 + 1)))

/-- rss_ringoccs/tools/write_output_files.py 170, 201, 215: `title`. -/
def title (filestr filtyp day : List Char) (files : Option (List (List Char))) : Py (List Char) := do
  let s ← seqNum filtyp day files
  pure (filestr ++ '_' :: filtyp.map upperC ++ '_' :: day ++ '_' :: s)

/-- rss_ringoccs/tools/pds3_tau_series.py 905-906 (pds3_dlp_series.py 747-748, pds3_geo_series.py 708-709): the name of the file that is
written; `ext` is `.TAB` or `.LBL` and, for TAU, `add_suffix`. -/
def written (title ext : List Char) : List Char := title.map upperC ++ ext

/-- What of `rev_info` decides about the directory: `prof` is the first letter of the direction of the profile. -/
structure RevInfo where
  prof : Char
  rev : Nat
  dir : Bool
  per : Bool

/-- rss_ringoccs/tools/write_output_files.py 115-131 and 150-155: the letters of the directions, and `pd2`.  `tau`, `dlp`, `sum` tell
whether the type contains `TAU`, `DLP`, `Summary`. -/
def letters (q : RevInfo) (tau dlp sum : Bool) : List Char × List Char :=
  let l := if tau then ([q.prof], if 53 ≤ q.rev ∧ q.rev ≤ 89 then ['C'] else [])
    else if q.prof = 'B' then (['I', 'E'], ['C']) else ([q.prof], [])
  let pd2 := if q.dir ∧ (dlp ∨ tau ∨ sum) then ['C'] else l.2
  (l.1, if q.per then 'P' :: pd2 else pd2)

/-- rss_ringoccs/tools/write_output_files.py 160-164: the directories after `local_path_to_output`; `head` is
`RSS_year_doy_band+dsn`. -/
def dirs (q : RevInfo) (rev head : List Char) (tau dlp sum : Bool) : List (List Char) :=
  let l := letters q tau dlp sum
  l.1.map fun d => "Rev".toList ++ rev ++ "/Rev".toList ++ rev ++ l.2 ++ [d] ++ "/Rev".toList ++ rev ++ l.2 ++ [d] ++ '_' :: head ++ ['_', d, '/']

end Verif.Out
