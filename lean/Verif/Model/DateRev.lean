import Verif.Model.Rsr

/-!
# Number and direction of an occultation from its date

Simplification: year and day are integers.
-/
namespace Verif.PyHist
open Verif.Rsr

/-- rss_ringoccs/tools/history.py 42-85. -/
def revNames : List String :=
  [
    "RSS_007RI_OCC003_PRIME", "RSS_007RI_OCC004_PRIME", "RSS_008RI_OCC003_PRIME", "RSS_008RI_OCC004_PRIME",
    "RSS_009RI_OCC004_PRIME", "RSS_010RI_OCC003_PRIME", "RSS_010RI_OCC004_PRIME", "RSS_011RI_OCC004_PRIME",
    "RSS_012RI_OCC003_PRIME", "RSS_012RI_OCC004_PRIME", "RSS_013RI_OCC004_PRIME", "RSS_014RI_OCC002_PRIME",
    "RSS_028RI_OCC001_PRIME", "RSS_028RI_OCC002_PRIME", "RSS_044RI_OCC002_PRIME", "RSS_046RI_OCC002_PRIME",
    "RSS_053RI_OCC002_PRIME", "RSS_054RI_OCC002_PRIME", "RSS_056RI_OCC002_PRIME", "RSS_057RI_OCC002_PRIME",
    "RSS_058RI_OCC002_PRIME", "RSS_060RI_OCC002_PRIME", "RSS_063RI_OCC002_PRIME", "RSS_064RI_OCC002_PRIME",
    "RSS_067RI_OCC002_PRIME", "RSS_079RI_OCC002_PRIME", "RSS_081RI_OCC002_PRIME", "RSS_082RI_OCC002_PRIME",
    "RSS_084RI_OCC002_PRIME", "RSS_089RI_OCC001_PRIME", "RSS_123RI_OCC002_PRIME", "RSS_123RI_OCC003_PRIME",
    "RSS_125RI_OCC002_PRIME", "RSS_125RI_OCC003_PRIME", "RSS_133RI_OCC002_PRIME", "RSS_133RI_OCC003_PRIME",
    "RSS_137RI_OCC001_PRIME", "RSS_137RI_OCC002_PRIME", "RSS_167RI_OCC001_PIE", "RSS_168RI_OCC001_PRIME",
    "RSS_169RI_OCC001_PIE", "RSS_170RI_OCC001_PIE", "RSS_174RI_OCC001_PIE", "RSS_179RI_OCC001_PRIME",
    "RSS_180RI_OCC001_PRIME", "RSS_189RI_OCC001_PRIME", "RSS_190RI_OCC001_PIE", "RSS_191RI_OCC001_PIE",
    "RSS_193RI_OCC001_PIE", "RSS_194RI_OCC001_PRIME", "RSS_196RI_OCC001_PIE", "RSS_197RI_OCC001_RSS",
    "RSS_236RI_OCC001_PIE", "RSS_237RI_OCC001_PIE", "RSS_237RI_OCC002_PIE", "RSS_238RI_OCC001_PIE",
    "RSS_247RI_OCC001_PRIME", "RSS_248RI_OCC001_PRIME", "RSS_250RI_OCC001_PIE", "RSS_251RI_OCC001_PIE",
    "RSS_253RI_OCC002_PRIME", "RSS_255RI_OCC001_PIE", "RSS_256RI_OCC001_PIE", "RSS_257RI_OCC001_PRIME",
    "RSS_266RI_OCC001_PRIME", "RSS_268RI_OCC001_PIE", "RSS_270RI_OCC001_PRIME", "RSS_273RI_PERIOCC001_PRIME",
    "RSS_273RI_INGOCC001_PRIME", "RSS_273RI_EGROCC001_PRIME", "RSS_PERIOCC001_PRIME", "RSS_274_RI_INGOCC001_PRIME",
    "RSS_274_RI_EGROCC001_PRIME", "RSS_275RI_PERIOCC001_PRIME", "RSS_275RI_INGOCC001_PRIME",
    "RSS_275RI_EGROCC001_PRIME", "RSS_276RI_OCC001_PRIME", "RSS_278RI_PERIOCC001_PRIME", "RSS_278RI_CRDOCC001_PRIME",
    "RSS_280RI_PERIOCC001_PRIME", "RSS_280RI_CRDOCC001_PRIME", "RSS_282RI_OCC001_PRIME", "RSS_284RI_PERIOCC001_PRIME",
    "RSS_284RI_CRDOCC001_PRIME"]

/-- rss_ringoccs/tools/history.py 86-95. -/
def rowYears : List Int :=
  [
    2005, 2005, 2005, 2005, 2005, 2005, 2005, 2005, 2005, 2005, 2005, 2005, 2006, 2006, 2007, 2007, 2007, 2007, 2008,
    2008, 2008, 2008, 2008, 2008, 2008, 2008, 2008, 2008, 2008, 2008, 2009, 2009, 2010, 2010, 2010, 2010, 2010, 2010,
    2012, 2012, 2012, 2012, 2012, 2013, 2013, 2013, 2013, 2013, 2013, 2013, 2013, 2013, 2016, 2016, 2016, 2016, 2016,
    2016, 2016, 2016, 2016, 2017, 2017, 2017, 2017, 2017, 2017, 2017, 2017, 2017, 2017, 2017, 2017, 2017, 2017, 2017,
    2017, 2017, 2017, 2017, 2017, 2017, 2017, 2017]

/-- rss_ringoccs/tools/history.py 96-104. -/
def rowDoys : List Int :=
  [
    123, 123, 141, 141, 159, 177, 177, 196, 214, 214, 232, 248, 258, 259, 130, 162, 337, 353, 15, 27, 39, 62, 92, 102,
    130, 217, 232, 239, 254, 291, 359, 360, 26, 27, 169, 170, 245, 245, 156, 180, 204, 225, 315, 18, 31, 130, 140, 151,
    175, 187, 220, 244, 158, 182, 182, 206, 307, 317, 333, 340, 354, 3, 10, 17, 81, 96, 110, 129, 129, 129, 135, 135,
    136, 142, 142, 142, 148, 161, 161, 174, 174, 187, 200, 200]

/-- `a[mask]` of NumPy for a mask of the same length. -/
def pick {α : Type} : List α → List Bool → List α
  | a :: as, b :: bs => if b then a :: pick as bs else pick as bs
  | _, _ => []

/-- Python's `min(l, key=…)` of a list that is not empty: the first element with the least key. -/
def minKey (key : Int → Int) : Int → List Int → Int
  | best, [] => best
  | best, x :: xs => minKey key (if key x < key best then x else best) xs

/-- rss_ringoccs/tools/history.py 106-113: the mask for the day. -/
def doyWhere (year doy : Int) : Py (List Bool) :=
  if (rowDoys.map fun d => decide (d = doy)).all (fun b => b = false) then
    match pick rowDoys (rowYears.map fun y => decide (y = year)) with
    | [] => .error .value
    | d :: ds =>
      let near := minKey (fun x => |x - doy|) d ds
      .ok (rowDoys.map fun d => decide (d = near))
  else .ok (rowDoys.map fun d => decide (d = doy))

/-- rss_ringoccs/tools/history.py 20-115; the last line is `…[0][4:7]`. -/
def dateToRev (year doy : Int) : Py (List Char) := do
  let days ← doyWhere year doy
  match pick revNames (List.zipWith (fun a b => a && b) (rowYears.map fun y => decide (y = year)) days) with
  | [] => .error .index
  | name :: _ => pure ((name.toList.take 7).drop 4)

/-- rss_ringoccs/tools/history.py 167-176. -/
def revStrs : List String :=
  [
    "007", "008", "009", "010", "011", "012", "013", "014", "028", "044", "046", "053", "054", "056", "057", "058",
    "060", "063", "064", "067", "079", "081", "082", "084", "089", "123", "125", "133", "137", "167", "168", "169",
    "170", "174", "179", "180", "189", "190", "191", "193", "194", "196", "197", "236", "237", "238", "247", "248",
    "250", "251", "253", "255", "256", "257", "266", "268", "270", "273", "274", "275", "276", "278", "280", "282",
    "284"]

/-- rss_ringoccs/tools/history.py 177-189. -/
def occDirs : List String :=
  [
    "BOTH", "BOTH", "EGRESS", "BOTH", "EGRESS", "BOTH", "EGRESS", "INGRESS", "INGRESS", "EGRESS", "INGRESS", "BOTH",
    "BOTH", "BOTH", "BOTH", "BOTH", "BOTH", "BOTH", "BOTH", "BOTH", "BOTH", "BOTH", "BOTH", "BOTH", "BOTH", "BOTH",
    "BOTH", "BOTH", "BOTH", "BOTH", "INGRESS", "INGRESS", "BOTH", "INGRESS", "INGRESS", "BOTH", "BOTH", "BOTH", "BOTH",
    "BOTH", "BOTH", "BOTH", "BOTH", "BOTH", "BOTH", "EGRESS", "BOTH", "BOTH", "BOTH", "BOTH", "BOTH", "EGRESS",
    "EGRESS", "EGRESS", "INGRESS", "INGRESS", "INGRESS", "BOTH", "BOTH", "BOTH", "BOTH", "BOTH", "BOTH", "BOTH", "BOTH"]

/-- rss_ringoccs/tools/history.py 191-199, without the quotation marks around the result; the default is that of lines 193-195. -/
def revToOcc (rev : List Char) : String :=
  match revStrs.findIdx? fun r => r.toList = rev with
  | some i => occDirs.getD i "BOTH"
  | none => "BOTH"

end Verif.PyHist
