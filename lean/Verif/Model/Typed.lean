import Verif.Model.LabelText
import Verif.Model.PowerNorm

/-!
# The free-space regions that are typed: rss_ringoccs/calibration/power_normalization.py 133-245

Simplifications: the answers are a list of texts, after the last of them `input` raises `EOFError`; `float` and `int` are parameters (`none` is the
`ValueError`); printing and plots are left out; of the fit only its type and its order are kept.
-/
namespace Verif.Typed
open Verif.Pds

/-- How the dialogue breaks off. -/
inductive Stop where
  | eof | value | index
  deriving DecidableEq, Repr

/-- A position in a text of length `n`, negative ones from the end. -/
def place (n : Nat) (z : ℤ) : Nat := if z < 0 then (z + n).toNat else z.toNat

/-- `s[a:b]`. -/
def cut (a b : ℤ) (s : List Char) : List Char := (s.take (place s.length b)).drop (place s.length a)

/-- rss_ringoccs/calibration/power_normalization.py 228: `ind`, from the position `k` on. -/
def opens : Nat → List Char → List Nat
  | _, [] => []
  | k, c :: s => if c = '[' then k :: opens (k + 1) s else opens (k + 1) s

/-- rss_ringoccs/calibration/power_normalization.py 230-236: the texts `str1`. -/
def pieces (s : List Char) : List Nat → List (List Char)
  | [] => []
  | [i] => [cut (i + 1) (-1) s]
  | i :: j :: r => cut (i + 1) (j - 3) s :: pieces s (j :: r)

/-- rss_ringoccs/calibration/power_normalization.py 237-238. -/
def pair {R : Type} (flt : List Char → Option R) (p : List Char) : Except Stop (R × R) :=
  match splitOn ',' p with
  | [] => .error .index
  | [a] => if (flt a).isSome then .error .index else .error .value
  | a :: b :: _ =>
    match flt a, flt b with
    | some x, some y => .ok (x, y)
    | _, _ => .error .value

/-- rss_ringoccs/calibration/power_normalization.py 214-245: `extract_list_from_str`. -/
def extract {R : Type} (flt : List Char → Option R) (s : List Char) : Except Stop (List (R × R)) := (pieces s (opens 0 s)).mapM (pair flt)

/-- The lists of regions that exist (0: the default), that of the last mask (`self.gaps`), the present one (`new_gaps`), type and order of the last
fit. -/
structure State (R : Type) where
  lists : List (List (R × R))
  own : Nat
  cur : Nat
  order : ℤ
  fit : Option (List Char × ℤ)
  deriving DecidableEq

/-- `input`. -/
def ask : List (List Char) → Except Stop (List Char × List (List Char))
  | [] => .error .eof
  | a :: r => .ok (a, r)

/-- `'y' in s or 'Y' in s`. -/
def yes (s : List Char) : Bool := decide ('y' ∈ s) || decide ('Y' ∈ s)

/-- rss_ringoccs/calibration/power_normalization.py 158: `'n' in cont or 'N' in cont`. -/
def no (s : List Char) : Bool := decide ('n' ∈ s) || decide ('N' ∈ s)

/-- rss_ringoccs/calibration/power_normalization.py 178-190: the text of new regions; the state with the list that is then the present one. -/
def entry {R : Type} (flt : List Char → Option R) (st : State R) (text : List Char) : Except Stop (State R) :=
  if ¬ "[[".toList <:+: text ∧ ¬ "]]".toList <:+: text then .ok { st with cur := st.own }
  else
    match extract flt (cut 1 (-1) text) with
    | .error e => .error e
    | .ok g => .ok { st with lists := st.lists ++ [g], cur := st.lists.length }

/-- rss_ringoccs/calibration/power_normalization.py 192-193: the new mask; `keep` are the regions that `create_mask` leaves in the list that it gets. -/
def remask {R : Type} (keep : List (R × R) → Except Stop (List (R × R))) (st : State R) : Except Stop (State R) :=
  match keep (st.lists.getD st.cur []) with
  | .error e => .error e
  | .ok g => .ok { st with lists := st.lists.set st.cur g, own := st.cur }

/-- rss_ringoccs/calibration/power_normalization.py 171-193: after the question whether to change them. -/
def change {R : Type} (flt : List Char → Option R) (keep : List (R × R) → Except Stop (List (R × R))) (st : State R) (ans : List (List Char)) :
    Except Stop (State R × List (List Char)) := do
  let (revert, ans) ← ask ans
  if yes revert then
    let st ← remask keep { st with cur := 0 }
    pure (st, ans)
  else
    let (text, ans) ← ask ans
    let st ← entry flt st text
    let st ← remask keep st
    pure (st, ans)

/-- rss_ringoccs/calibration/power_normalization.py 159-164. -/
def maybeChange {R : Type} (flt : List Char → Option R) (keep : List (R × R) → Except Stop (List (R × R))) (st : State R) (ans : List (List Char)) :
    Except Stop (State R × List (List Char)) := do
  let (a, ans) ← ask ans
  if yes a then change flt keep st ans else pure (st, ans)

/-- rss_ringoccs/calibration/power_normalization.py 201: `int(input(…))`. -/
def order {R : Type} (int : List Char → Option ℤ) (st : State R) (fittype text : List Char) : Except Stop (State R) :=
  match int text with
  | none => .error .value
  | some k => .ok { st with order := k, fit := some (fittype, k) }

/-- rss_ringoccs/calibration/power_normalization.py 158-210: one turn of the loop; the answer to the last question. -/
def turn {R : Type} (flt : List Char → Option R) (int : List Char → Option ℤ) (keep : List (R × R) → Except Stop (List (R × R))) (st : State R)
    (ans : List (List Char)) : Except Stop (State R × List Char × List (List Char)) := do
  let (st, ans) ← maybeChange flt keep st ans
  let (fittype, ans) ← ask ans
  let (o, ans) ← ask ans
  let st ← order int st fittype o
  let (cont, ans) ← ask ans
  pure (st, cont, ans)

/-- rss_ringoccs/calibration/power_normalization.py 158-212: the loop; each turn uses up answers. -/
def loop {R : Type} (flt : List Char → Option R) (int : List Char → Option ℤ) (keep : List (R × R) → Except Stop (List (R × R))) :
    Nat → State R → List Char → List (List Char) → Except Stop (State R)
  | 0, st, cont, _ => if no cont then .error .eof else .ok st
  | n + 1, st, cont, ans =>
    if no cont then
      match turn flt int keep st ans with
      | .error e => .error e
      | .ok (st, cont, ans) => loop flt int keep n st cont ans
    else .ok st

/-- rss_ringoccs/calibration/power_normalization.py 133-213: `fit_check`.  The default list is that of the attribute (112: `self.gaps` is passed). -/
def fitCheck {R : Type} (flt : List Char → Option R) (int : List Char → Option ℤ) (keep : List (R × R) → Except Stop (List (R × R)))
    (gaps : List (R × R)) (k : ℤ) (ans : List (List Char)) : Except Stop (State R) := do
  let (cont, ans) ← ask ans
  loop flt int keep ans.length ⟨[gaps], 0, 0, k, none⟩ cont ans

/-- What the caller gets. -/
def State.result {R : Type} (st : State R) : List (R × R) := st.lists.getD st.cur []

end Verif.Typed
