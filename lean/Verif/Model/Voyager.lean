import Mathlib.Data.Rat.Defs
import Mathlib.Algebra.Order.Ring.Rat

/-!
# The reader of the Voyager 2 recordings at Uranus

Simplifications: a file is the list of its bytes; `nrec` is the number of records, 24000 in the code; the times are exact rational numbers;
the imaginary part is an unspecified function `hilbert` of the real part that keeps its length.
-/
namespace Verif.Vgr

/-- rss_ringoccs/rsr_reader/vgr_uranus_reader.py 137-143: the data part of `nrec` records; a read beyond the end of the file returns
what there is. -/
def records : Nat → List Nat → List Nat
  | 0, _ => []
  | n + 1, b =>
    let afterHdr := b.drop 80
    let afterData := afterHdr.drop 4000
    let afterPpm := afterData.drop 300
    afterHdr.take 4000 ++ records n (afterPpm.drop 10)

/-- rss_ringoccs/rsr_reader/vgr_uranus_reader.py 108-145: `read_vgr_uranus`; `none` is the ValueError of `reshape`. -/
def readFile (nrec : Nat) (b : List Nat) : Option (List Nat) :=
  let d := records nrec (b.drop 32)
  let rows := nrec * 4000 / 4
  if d.length = rows * 4 then some ((List.range rows).map fun k => d.getD (4 * k + 2) 0) else none

/-- rss_ringoccs/rsr_reader/vgr_uranus_reader.py 20-30: the files of a direction, below the directory; `true` is ingress. -/
def fileNames : Bool → List String
  | true => ["SCRA_1066/UC0461/F00001.DAT", "SCRA_1066/UC0462/F00001.DAT", "SCRA_1067/UC0463/F00001.DAT"]
  | false => ["SCRA_1070/UC0482/F00001.DAT", "SCRA_1070/UC0483/F00001.DAT", "SCRA_1070/UC0484/F00001.DAT", "SCRA_1070/UC0485/F00001.DAT"]

/-- rss_ringoccs/rsr_reader/vgr_uranus_reader.py 20 and 25: `prof_dir.upper()`, for the names that are compared with. -/
def direction (s : String) : Option Bool :=
  if s = "I" ∨ s = "i" then some true
  else if s = "E" ∨ s = "e" then some false
  else none

/-- rss_ringoccs/rsr_reader/vgr_uranus_reader.py 81-100: the times of the samples, 50000 in a second. -/
def times (ingress : Bool) (nrec nfiles : Nat) : List ℚ :=
  let pts := nrec * 4000 / 4
  if ingress then (List.range (pts * nfiles)).map fun (k : Nat) => (22 * 3600 + 27 * 60 + 1 : ℚ) + k / 50000
  else [(1 * 3600 + 15 * 60 + 2 : ℚ), 1 * 3600 + 23 * 60 + 3, 1 * 3600 + 31 * 60 + 3, 1 * 3600 + 39 * 60 + 3].flatMap fun s =>
    (List.range pts).map fun (k : Nat) => s + k / 50000

/-- What the constructor does. -/
inductive Outcome where
  | exit
  | typeError
  | valueError
  | ok (spm : List ℚ) (re : List Int) (im : List ℚ)

/-- rss_ringoccs/rsr_reader/vgr_uranus_reader.py 13-105: the constructor.  The message for an unknown direction adds the builtin function
`dir` to a string (32), and a missing file adds 1 to its name (41). -/
def construct (hilbert : List Int → List ℚ) (nrec : Nat) (isDir : Bool) (file : String → Option (List Nat)) (profDir : String) : Outcome :=
  if isDir = false then .exit
  else match direction profDir with
    | none => .typeError
    | some ingress =>
      match (fileNames ingress).mapM file with
      | none => .typeError
      | some contents =>
        match contents.mapM (readFile nrec) with
        | none => .valueError
        | some data =>
          let re : List Int := data.flatten.map fun (x : Nat) => (x : Int) - 128
          let spm := times ingress nrec contents.length
          if ingress = false ∧ spm.length ≠ re.length then .valueError
          else .ok spm re (hilbert re)

end Verif.Vgr
