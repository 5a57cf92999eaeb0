import Verif.Model.Csv

/-!
# What a CSV file means (independent of the reader)
-/
namespace Verif.Spec
open Verif

/-- The documented number of columns (headers of the `*_csv_check_column_count.c` files and
the PDS label documentation). -/
def documentedColumns : Kind → Bool → Nat
  | .cal, _ => 4
  | .dlp, false => 13
  | .dlp, true => 12
  | .geo, false => 19
  | .geo, true => 18
  | .tau, false => 13
  | .tau, true => 12
  | .merged, _ => 19
  | .uranus, _ => 17

/-- The documented meaning of the columns, comments in the read functions (e.g.
rss_ringoccs_dlp_csv_read_data.c 98-113). -/
def documentedOrder : Kind → Bool → List Col
  | .cal, _ => [.tOet, .fSkyPred, .fSkyResid, .pFree]
  | .dlp, false => [.rho, .rhoPole, .rhoTiming, .phiRl, .phi, .pNorm, .rawTau, .phase, .rawTauThr,
      .tOet, .tRet, .tSet, .B]
  | .dlp, true => [.rho, .rhoPole, .rhoTiming, .phiRl, .phi, .rawTau, .phase, .rawTauThr,
      .tOet, .tRet, .tSet, .B]
  | .geo, false => [.tOet, .tRet, .tSet, .rho, .phiRl, .phi, .B, .D, .rhoDot, .phiRlDot, .F, .rImp,
      .rx, .ry, .rz, .vx, .vy, .vz, .obsLat]
  | .geo, true => [.tOet, .tRet, .tSet, .rho, .phiRl, .phi, .B, .D, .rhoDot, .phiRlDot, .F, .rImp,
      .rx, .ry, .rz, .vx, .vy, .vz]
  | .tau, false => [.rho, .rhoPole, .rhoTiming, .phiRl, .phi, .power, .tau, .phase, .tauThr,
      .tOet, .tRet, .tSet, .B]
  | .tau, true => [.rho, .rhoPole, .rhoTiming, .phiRl, .phi, .tau, .phase, .tauThr,
      .tOet, .tRet, .tSet, .B]
  | .merged, _ => [.B, .D, .fSky, .pNorm, .phase, .phi, .phiRl, .rawTauThr, .rawTau, .rhoPole,
      .rhoTiming, .rhoDot, .rho, .rx, .ry, .rz, .tOet, .tRet, .tSet]
  | .uranus, _ => [.rho, .rhoPole, .rhoTiming, .phiRl, .phi, .pNorm, .rawTau, .phase, .rawTauThr,
      .tOet, .tRet, .tSet, .B, .rhoDot, .F, .D, .fSky]

/-- The pieces of a string between commas. -/
def split : List Char → List (List Char)
  | [] => [[]]
  | ch :: s =>
    if ch = ',' then [] :: split s
    else match split s with
      | [] => [[ch]]
      | f :: fs => (ch :: f) :: fs

/-- The non-empty pieces of the text before the first NUL. -/
def tokens (s : List Char) : List (List Char) := (split (s.takeWhile (· ≠ '\x00'))).filter (· ≠ [])

/-- The text of a field: not empty, no comma, line end or NUL. -/
def IsField (s : List Char) : Prop := s ≠ [] ∧ ∀ ch ∈ s, ch ≠ ',' ∧ ch ≠ '\n' ∧ ch ≠ '\x00'

/-- Fields with commas in between. -/
def joinComma : List (List Char) → List Char
  | [] => []
  | [s] => s
  | s :: rest => s ++ ',' :: joinComma rest

/-- A row written as a line. -/
def lineOf (row : List (List Char)) : List Char := joinComma row ++ ['\n']

/-- A table written as a file. -/
def fileOf (rows : List (List (List Char))) : List Char := rows.flatMap lineOf

/-- A table of `cols` columns whose lines fit in the buffer. -/
structure IsTable (cols : Nat) (rows : List (List (List Char))) : Prop where
  nonempty : rows ≠ []
  width : ∀ row ∈ rows, row.length = cols
  fields : ∀ row ∈ rows, ∀ s ∈ row, IsField s
  short : ∀ row ∈ rows, (lineOf row).length < 1024

/-- What is assumed of the library: `atof` ignores the line end after a number, lines that end
with a newline are counted, and the column counter counts the fields of the first line. -/
structure CsvLaws (V : CsvLib) : Prop where
  atof : ∀ s, V.atof (s ++ ['\n']) = V.atof s
  lineCount : ∀ f : List Char, (f = [] ∨ f.getLast? = some '\n') → V.lineCount f = f.count '\n'
  columnCount : ∀ (row : List (List Char)) (rest : List Char), row ≠ [] → (∀ s ∈ row, IsField s) →
    V.columnCount (lineOf row ++ rest) = row.length

/-- The entry in line `i`, column `j` of a table of texts. -/
def field (rows : List (List (List Char))) (i j : Nat) : List Char := (rows.getD i []).getD j []

end Verif.Spec
