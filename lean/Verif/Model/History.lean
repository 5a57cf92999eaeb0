import Verif.Base.Res

/-!
# Histories and the table of revolutions
-/
namespace Verif.Hist

/-- `rssringoccs_rev_number_vals`: src/history/rss_ringoccs_date_to_rev.c 5-27. -/
def revVals : List String := [
  "007RI", "007RI", "008RI", "008RI",
  "009RI", "010RI", "010RI", "011RI",
  "012RI", "012RI", "013RI", "014RI",
  "028RI", "028RI", "044RI", "046RI",
  "053RI", "054RI", "056RI", "057RI",
  "058RI", "060RI", "063RI", "064RI",
  "067RI", "079RI", "081RI", "082RI",
  "084RI", "089RI", "123RI", "123RI",
  "125RI", "125RI", "133RI", "133RI",
  "137RI", "137RI", "167RI", "168RI",
  "169RI", "170RI", "174RI", "179RI",
  "180RI", "189RI", "190RI", "191RI",
  "193RI", "194RI", "196RI", "197RI",
  "236RI", "237RI", "237RI", "238RI",
  "247RI", "248RI", "250RI", "251RI",
  "253RI", "255RI", "256RI", "257RI",
  "266RI", "268RI", "270RI", "273RI",
  "273RI", "273RI", "PERIO", "274RI",
  "274RI", "275RI", "275RI", "275RI",
  "276RI", "278RI", "278RI", "280RI",
  "280RI", "282RI", "284RI", "284RI"]

/-- `rssringoccs_year_vals`: src/history/rss_ringoccs_date_to_rev.c 29-38. -/
def yearVals : List Nat := [
  2005, 2005, 2005, 2005, 2005, 2005, 2005, 2005, 2005, 2005, 2005,
  2005, 2006, 2006, 2007, 2007, 2007, 2007, 2008, 2008, 2008, 2008,
  2008, 2008, 2008, 2008, 2008, 2008, 2008, 2008, 2009, 2009, 2010,
  2010, 2010, 2010, 2010, 2010, 2012, 2012, 2012, 2012, 2012, 2013,
  2013, 2013, 2013, 2013, 2013, 2013, 2013, 2013, 2016, 2016, 2016,
  2016, 2016, 2016, 2016, 2016, 2016, 2017, 2017, 2017, 2017, 2017,
  2017, 2017, 2017, 2017, 2017, 2017, 2017, 2017, 2017, 2017, 2017,
  2017, 2017, 2017, 2017, 2017, 2017, 2017]

/-- `rssringoccs_doy_vals`: src/history/rss_ringoccs_date_to_rev.c 40-48. -/
def doyVals : List Nat := [
  123, 123, 141, 141, 159, 177, 177, 196, 214, 214, 232, 248, 258,
  259, 130, 162, 337, 353,  15,  27,  39,  62,  92, 102, 130, 217,
  232, 239, 254, 291, 359, 360,  26,  27, 169, 170, 245, 245, 156,
  180, 204, 225, 315,  18,  31, 130, 140, 151, 175, 187, 220, 244,
  158, 182, 182, 206, 307, 317, 333, 340, 354,   3,  10,  17,  81,
   96, 110, 129, 129, 129, 135, 135, 136, 142, 142, 142, 148, 161,
  161, 174, 174, 187, 200, 200]

/-- The loop of `rssringoccs_Date_to_Rev` from row `n`, with `cnt` rows to go:
src/history/rss_ringoccs_date_to_rev.c 71-80. -/
def revLoop (year doy : Nat) : Nat → Nat → Res (Option String)
  | _, 0 => .ok none
  | n, cnt + 1 => do
    let y ← rd yearVals n
    if year ≠ y then revLoop year doy (n + 1) cnt
    else do
      let d ← rd doyVals n
      if doy ≠ d then revLoop year doy (n + 1) cnt
      else do
        let r ← rd revVals n
        .ok (some r)

/-- src/history/rss_ringoccs_date_to_rev.c 50-83. `none` is NULL; the arguments are
`unsigned int`s (any natural number here). -/
def dateToRev (year doy : Nat) : Res (Option String) :=
  if year < 2005 then .ok none
  else if 2017 < year then .ok none
  else if 366 < doy then .ok none
  else revLoop year doy 0 revVals.length

/-- A `const char *`: NULL, a string, or an element that was never written. -/
inductive Cell
  | null | str (s : String) | junk
  deriving DecidableEq, Repr

/-- `rssringoccs_History`: include/types/rss_ringoccs_history.h 31-47. `base` are the
seven strings in the order in which they are printed. -/
structure History where
  base : List Cell
  vars : List Cell
  kwds : List Cell
  deriving DecidableEq, Repr

/-- A string that is an argument for `%s`. -/
def strArg : Cell → Res String
  | .null => .ub .stringNull
  | .str s => .ok s
  | .junk => .ub .uninit

/-- Several arguments. -/
def strArgs : List Cell → Res (List String)
  | [] => .ok []
  | c :: cs => do
    let s ← strArg c
    let ss ← strArgs cs
    .ok (s :: ss)

/-- A pointer that is tested against NULL. -/
def isNull : Cell → Res Bool
  | .null => .ok true
  | .str _ => .ok false
  | .junk => .ub .uninit

/-- What is printed. -/
inductive Line
  | none | base (l : List String) | keywords | pair (k v : String)
  deriving DecidableEq, Repr

/-- The loop that prints the pairs from index `n`; `fuel` bounds the number of rounds
(`n` grows by 2 and the loop ends at 17, so 9 suffice):
src/history/rss_ringoccs_history_print.c 40-53 and 64-76. -/
def printPairs (l : List Cell) : Nat → Nat → Res (List Line)
  | 0, _ => .ub .hang
  | fuel + 1, n => do
    let c ← rd l n
    if ← isNull c then .ok []
    else do
      let c' ← rd l (n + 1)
      let k ← strArg c
      let v ← strArg c'
      if 17 ≤ n + 2 then .ok [.pair k v]
      else do
        let rest ← printPairs l fuel (n + 2)
        .ok (.pair k v :: rest)

/-- src/history/rss_ringoccs_history_print.c 32-54 and 58-77. -/
def printList (l : List Cell) : Res (List Line) := do
  let c ← rd l 0
  if ← isNull c then .ok [.none] else printPairs l 10 0

/-- src/history/rss_ringoccs_history_print.c 5-78. -/
def print : Option History → Res (List Line)
  | none => .ok [.none]
  | some h => do
    let b ← strArgs h.base
    let v ← printList h.vars
    let k ← printList h.kwds
    .ok (.base b :: v ++ .keywords :: k)

/-- `history->a[i] = s` for one of the arrays. -/
def put (l : List Cell) (i : Nat) (c : Cell) : Res (List Cell) := wr l i c

/-- src/csv_tools/rss_ringoccs_geo_csv_write_history.c 15-40 for an object without error, after
`malloc` succeeded (its failure is reported); `base` are the strings of
src/history/rss_ringoccs_history_create_base.c 19-29, `filename` the argument. -/
def writeHistory (base : List Cell) (filename : Cell) (dep : Bool) : Res History := do
  let fresh := List.replicate 17 Cell.junk
  let v ← put fresh 0 (.str "filename")
  let v ← put v 1 filename
  let v ← put v 2 .null
  let k ← put fresh 0 (.str "use_deprecated")
  let k ← put k 1 (.str (if dep then "True" else "False"))
  let k ← put k 2 .null
  .ok { base := base, vars := v, kwds := k }

end Verif.Hist
