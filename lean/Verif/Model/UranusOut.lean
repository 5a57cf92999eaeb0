import Verif.Model.OutName

/-!
# Names of the output files of the Uranus pipeline

Simplifications: as in `Verif.Model.OutName`.
-/
namespace Verif.UOut
open Verif.Rsr Verif.Out

/-- rss_ringoccs/tools/write_uranus_output_files.py 79-108: `seq_num`, from the files in the order of `os.listdir`; `files` is `none` if the directory
does not exist.  Lines 90-91 are lines 186-187 of write_output_files.py; line 97 takes the last number, not the greatest. -/
def seqNum (filtyp day : List Char) (files : Option (List (List Char))) : Py (List Char) :=
  match files with
  | none => .ok "0001".toList
  | some l =>
    let dirfiles := l.filter fun x => decide (x.head? ≠ some '.')
    if dirfiles = [] then .ok "0001".toList
    else do
      let s ← sqn0 filtyp day dirfiles
      if s = [] then pure "0001".toList
      else do
        let ns ← s.mapM pyIntDigits
        pure (lastFour (decimal (ns.getLastD 0 + 1)))

/-- rss_ringoccs/tools/write_uranus_output_files.py 71-72: `filestr`. -/
def fileStr (band dsn dir ring : List Char) : List Char := "VGR2_".toList ++ band ++ dsn ++ '_' :: dir ++ "_URING_".toList ++ ring

/-- rss_ringoccs/tools/write_uranus_output_files.py 79-115: `title`. -/
def title (filestr filtyp day : List Char) (files : Option (List (List Char))) : Py (List Char) := do
  let s ← seqNum filtyp day files
  pure (filestr ++ '_' :: filtyp.map upperC ++ '_' :: day ++ '_' :: s)

end Verif.UOut
