import Verif.Model.Rsr
import Verif.Model.Parse
import Mathlib.Analysis.Real.Pi.Bounds

/-!
# Checks of the arguments in Python

Simplifications: texts contain ASCII characters only; numbers are rational or NaN (`none`), the messages of the errors are left out.
-/
namespace Verif.Chk
open Verif.Rsr

/-- rss_ringoccs/tools/error_check.py 111-112, 161-162, 205-206: spaces, apostrophes and quotation marks are removed, and letters made
lower case. -/
def cleaned (s : List Char) : List Char := (s.filter fun c => decide (c ≠ ' ' ∧ c ≠ '\'' ∧ c ≠ '"')).map lowerC

/-- White space of Python. -/
def isSpacePy (c : Char) : Bool := isSpaceC c || (decide (28 ≤ c.toNat) && decide (c.toNat ≤ 31))

/-- A decimal digit. -/
def isDigit (c : Char) : Bool := decide (48 ≤ c.toNat) && decide (c.toNat ≤ 57)

/-- The rest of the digits of a number: groups may be separated by one underscore. -/
def digitsVal : Nat → List Char → Option Nat
  | n, [] => some n
  | n, c :: cs =>
    if isDigit c then digitsVal (10 * n + (c.toNat - 48)) cs
    else if c = '_' then
      match cs with
      | d :: ds => if isDigit d then digitsVal (10 * n + (d.toNat - 48)) ds else none
      | [] => none
    else none

/-- Digits without a sign. -/
def unsignedVal : List Char → Option Nat
  | c :: cs => if isDigit c then digitsVal (c.toNat - 48) cs else none
  | [] => none

/-- Python's `int(s)`; `none` is a `ValueError`. -/
def pyIntText (s : List Char) : Option Int :=
  match ((s.dropWhile isSpacePy).reverse.dropWhile isSpacePy).reverse with
  | '+' :: cs => (unsignedVal cs).map fun n : Nat => (n : Int)
  | '-' :: cs => (unsignedVal cs).map fun n : Nat => -(n : Int)
  | cs => (unsignedVal cs).map fun n : Nat => (n : Int)

/-- rss_ringoccs/tools/error_check.py 153-193, for a text. -/
def checkPsitype (s : List Char) : Py (List Char) :=
  let p := cleaned s
  if ¬ (p = "newton".toList ∨ "fresnel".toList <:+: p) then .error .type
  else if p = "fresnel".toList then .ok p
  else if "fresnel".toList <:+: p then
    match pyIntText (p.drop 7) with
    | none => .error .type
    | some order => if order < 2 ∨ 256 < order then .error .type else .ok p
  else .ok p

/-- rss_ringoccs/tools/error_check.py 196-197. -/
def wTypes : List (List Char) :=
  ["rect", "coss", "kb20", "kb25", "kb35", "kbmd20", "kbmd25", "kbmd35"].map String.toList

/-- rss_ringoccs/tools/error_check.py 195-222, for a text. -/
def checkWtype (s : List Char) : Py (List Char) :=
  let w := cleaned s
  if w ∈ wTypes then .ok w else .error .type

/-- rss_ringoccs/tools/error_check.py 71-93. -/
def regionDict : List (String × ℚ × ℚ) :=
  [("all", 1, 400000), ("besselbarnard", 120210, 120330), ("bessel-barnard", 120210, 120330), ("cringripples", 77690, 77760),
    ("encke", 132900, 134200), ("enckegap", 132900, 134200), ("herschel", 118100, 118380), ("herschelgap", 118100, 118380),
    ("huygens", 117650, 117950), ("huygensringlet", 117650, 117950), ("janusepimetheus", 96200, 96800),
    ("jeffreys", 118900, 119000), ("jeffreysgap", 118900, 119000), ("kuiper", 119300, 119500), ("kuipergap", 119300, 119500),
    ("maxwell", 87410, 87610), ("maxwellringlet", 87410, 87610), ("russell", 118550, 118660), ("russellgap", 118550, 118660),
    ("titan", 77870, 77930), ("titanringlet", 77870, 77930)]

/-- rss_ringoccs/tools/error_check.py 118-124: `rng` is a text; the result is the name of the region. -/
def checkRangeText (s : List Char) : Py (List Char) :=
  let r := cleaned s
  if r ∈ regionDict.map (fun d => d.1.toList) then .ok r else .error .type

/-- `numpy.min` of a list that is not empty, with NaN as `none`. -/
def npMin : List (Option ℚ) → Option ℚ
  | [] => none
  | [x] => x
  | x :: xs =>
    match x, npMin xs with
    | some a, some b => some (min a b)
    | _, _ => none

/-- `x < y` where `x` may be NaN. -/
def ltNan (x : Option ℚ) (y : ℚ) : Bool :=
  match x with
  | some a => decide (a < y)
  | none => false

/-- rss_ringoccs/tools/error_check.py 104-117: `rng` is a list of numbers. -/
def checkRangeList (rng : List (Option ℚ)) : Py (List (Option ℚ)) :=
  if rng.length < 2 then .error .type
  else if ltNan (npMin rng) 0 then .error .value
  else .ok rng

/-- rss_ringoccs/tools/error_check.py 32-41; `numpy.min` of an empty array is a `ValueError`. -/
def checkPositive (l : List (Option ℚ)) : Py Unit :=
  if l = [] then .error .value
  else
    match npMin l with
    | some a => if a ≤ 0 then .error .type else .ok ()
    | none => .ok ()

/-- rss_ringoccs/tools/error_check.py 54-68, for one number. -/
def checkTwoPi (x : ℚ) (deg : Bool) : Py Unit :=
  if (if deg then 360.0001 else 6.2832) < |x| then .error .type else .ok ()

end Verif.Chk
