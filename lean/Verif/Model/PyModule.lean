import Verif.Base.Res

/-!
# Importing the extension module: rss_ringoccs/crssringoccs/crssringoccs.c 37-153

Simplifications: of the Python objects only the reference counts are kept; the references that `PyType_Ready` makes are among those that a class has
at the beginning; the dictionary of the module has one reference to each object that was added, and releases them with the module.
-/
namespace Verif.PyMod

/-- The four classes. -/
inductive Cls
  | diffrec | extract | uranus | merged
  deriving DecidableEq, Repr

/-- The references of each class, those of the module (0: it does not exist, or not any more), the classes in its dictionary, the references of
the list `all`, and whether the list is in the dictionary. -/
structure St where
  cls : Cls → Nat
  module : Nat
  owned : List Cls
  all : Nat
  ownsAll : Bool

/-- Which calls succeed: `PyType_Ready` (lines 43-53), `PyModule_Create` (55), `PyModule_AddObject` of a class (61, 75, 90, 106), `Py_BuildValue`
(122), `PyModule_AddObject` of the list (140) and `import_array` (151). -/
structure Calls where
  ready : Cls → Bool
  create : Bool
  add : Cls → Bool
  build : Bool
  addAll : Bool
  array : Bool

/-- `Py_INCREF` of a class. -/
def incref (c : Cls) (s : St) : St := { s with cls := fun d => if d = c then s.cls d + 1 else s.cls d }

/-- `Py_DECREF` of a class; the last reference to a class that is not on the heap must not be released. -/
def decref (c : Cls) (s : St) : Res St :=
  if s.cls c ≤ 1 then .ub .doubleFree else .ok { s with cls := fun d => if d = c then s.cls d - 1 else s.cls d }

/-- Several of them. -/
def decrefs : List Cls → St → Res St
  | [], s => .ok s
  | c :: cs, s => do
    let s ← decref c s
    decrefs cs s

/-- `Py_DECREF` of the module: with the last reference its dictionary goes. -/
def dropModule (s : St) : Res St :=
  if s.module = 0 then .ub .useAfterFree
  else if s.module = 1 then decrefs s.owned { s with module := 0, owned := [], all := if s.ownsAll then s.all - 1 else s.all, ownsAll := false }
  else .ok { s with module := s.module - 1 }

/-- A class is added (lines 60-72, 74-87, 89-103, 105-120): `PyModule_AddObject` takes over the reference when it succeeds.  `back` are the classes
released when it does not; `go` is the rest. -/
def addClass (K : Calls) (c : Cls) (back : List Cls) (s : St) (go : St → Res (Bool × St)) : Res (Bool × St) :=
  if K.add c then go { incref c s with owned := s.owned ++ [c] }
  else do
    let s ← decrefs back (incref c s)
    let s ← dropModule s
    .ok (false, s)

/-- rss_ringoccs/crssringoccs/crssringoccs.c 122-152. -/
def finish (K : Calls) (s : St) : Res (Bool × St) :=
  if K.build then
    if K.addAll then .ok (K.array, { s with all := 1, ownsAll := true })
    else do
      let s ← decrefs [.extract, .uranus, .diffrec] { s with all := 1 }
      let s ← dropModule s
      .ok (false, s)
  else do
    let s ← decrefs [.extract, .uranus, .diffrec] s
    let s ← dropModule s
    let s ← dropModule s
    .ok (false, s)

/-- rss_ringoccs/crssringoccs/crssringoccs.c 37-153: `PyInit_crssringoccs`; whether the module is returned. -/
def init (K : Calls) (s : St) : Res (Bool × St) :=
  if ¬ (K.ready .diffrec ∧ K.ready .extract ∧ K.ready .uranus ∧ K.ready .merged) then .ok (false, s)
  else if ¬ K.create then .ok (false, s)
  else
    addClass K .extract [.extract] { s with module := 1 } fun s =>
    addClass K .uranus [.extract, .uranus] s fun s =>
    addClass K .diffrec [.extract, .uranus, .diffrec] s fun s =>
    addClass K .merged [.extract, .uranus, .diffrec, .merged] s (finish K)

/-- The names under which the classes are added: rss_ringoccs/crssringoccs/crssringoccs.c 63, 77, 92, 108. -/
def addedName : Cls → String
  | .diffrec => "DiffractionCorrection"
  | .extract => "ExtractCSVData"
  | .uranus => "GetUranusData"
  | .merged => "GetMergedCSVData"

/-- The list `__all__`: rss_ringoccs/crssringoccs/crssringoccs.c 122-128. -/
def allNames : List String := ["DiffractionCorrection", "ExtractCSVData", "GetUranusData", "GetMergedCSVData"]

end Verif.PyMod
