import Verif.Model.Spectro
import Mathlib.Data.Rat.Floor

/-!
# The file of a spectrogram

Simplifications: exact numbers; what `str` and `float` do with a number is a parameter (`Fmt`), with the properties that Python gives: `float` gives back the number
that `str` wrote and passes over blanks around it, and `str` writes no blank, comma or colon.  The file is the list of its lines, each with its line feed.
-/
namespace Verif.Spc

/-- What Python takes for blank, of the characters that occur here. -/
def blank (c : Char) : Bool := c == ' ' || c == '\n'

/-- `str` and `float`. -/
structure Fmt where
  str : ℚ → List Char
  float : List Char → Option ℚ
  back : ∀ x p q, (∀ c ∈ p, blank c = true) → (∀ c ∈ q, blank c = true) → float (p ++ str x ++ q) = some x
  clean : ∀ x, ∀ c ∈ str x, blank c = false ∧ c ≠ ',' ∧ c ≠ ':'

/-- `s.rjust(18)`. -/
def rjust18 (s : List Char) : List Char := List.replicate (18 - s.length) ' ' ++ s

/-- rss_ringoccs/scatter/spectrogram.py 170-177: a line of the header. -/
def headLine (F : Fmt) (e : String × ℚ) : List Char := rjust18 (e.1.toList ++ [':', ' ']) ++ F.str e.2 ++ ['\n']

/-- rss_ringoccs/scatter/spectrogram.py 179-181: the line of one time, with its radius, its column and the free power. -/
def bodyLine (F : Fmt) (e : ℚ × List ℚ × ℚ) : List Char := [','].intercalate ((e.1 :: e.2.1.map (· / e.2.2)).map F.str) ++ ['\n']

/-- rss_ringoccs/scatter/spectrogram.py 169-182; `none` is the IndexError of lines 170 or 171.  The columns of `S` are listed. -/
def writeSpec (F : Fmt) (f t r : List ℚ) (S : List (List ℚ)) (snorm : List ℚ) : Option (List (List Char)) :=
  if f = [] ∨ t = [] then none
  else some ((header f t).map (headLine F) ++ (r.zip (S.zip snorm)).map (bodyLine F))

/-- `s.strip()`. -/
def strip (s : List Char) : List Char := ((s.dropWhile blank).reverse.dropWhile blank).reverse

/-- What the reader returns; the columns of the spectrogram are listed. -/
structure SpecData where
  time : List ℚ
  rho : List ℚ
  freq : List ℚ
  spec : List (List ℚ)

/-- rss_ringoccs/scatter/spectro_reader.py 7-8: `float(input[i].strip().split(':')[1])`; `none` is an IndexError or a ValueError. -/
def headVal (F : Fmt) (input : List (List Char)) (i : Nat) : Option ℚ :=
  (input[i]?).bind fun l => ((strip l).splitOn ':')[1]?.bind F.float

/-- `int(x)` for the numbers of samples, as a count. -/
def toCount (x : ℚ) : Nat := ⌊x⌋.toNat

/-- rss_ringoccs/scatter/spectro_reader.py 10-11: `a+np.arange(int(n))*d`. -/
def axisOf (a n d : ℚ) : List ℚ := (List.range (toCount n)).map fun k : Nat => a + k * d

/-- rss_ringoccs/scatter/spectro_reader.py 16-21: one row. -/
def readRow (F : Fmt) (nf : ℚ) (l : List Char) : Option (ℚ × List ℚ) :=
  match l.splitOn ',' with
  | [] => none
  | r :: s => (F.float r).bind fun r => ((s.take (toCount nf)).mapM F.float).map fun s => (r, s)

/-- rss_ringoccs/scatter/spectro_reader.py 3-22. -/
def readSpec (F : Fmt) (input : List (List Char)) : Option SpecData := do
  let f0 ← headVal F input 0
  let f1 ← headVal F input 1
  let f2 ← headVal F input 2
  let t0 ← headVal F input 3
  let t1 ← headVal F input 4
  let t2 ← headVal F input 5
  let rows ← (List.range (toCount t1)).mapM fun k => (input[6 + k]?).bind (readRow F f1)
  pure ⟨axisOf t0 t1 t2, rows.map (·.1), axisOf f0 f1 f2, rows.map (·.2)⟩

end Verif.Spc
