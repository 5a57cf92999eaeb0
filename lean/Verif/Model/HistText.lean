/-!
# The histories in a label and the references between them

rss_ringoccs/tools/pds3_write_series_v2.py 107-161 and 240-325: which histories a label shows, in which order, and where a history refers to another
one.  The texts themselves are in `LabelText`.

Simplifications: a history has its positional and its keyword arguments and a number `tag` that stands for everything else in it; the additional
information holds no histories; `key_order1` has the positional arguments once, as in all four programs that make it; the dictionaries of different
histories are different objects.
-/
namespace Verif.HText

/-- A value in a history: a text, or the history of another object. -/
inductive Arg where
  | text
  | hist (tag : Nat) (pos kw : List (String × Arg))

/-- Arguments by name: a Python dictionary in the order of its entries. -/
abbrev Dict := List (String × Arg)

/-- `isinstance(x, dict)`. -/
def isHist : Arg → Bool
  | .text => false
  | .hist .. => true

/-- `d[k] = v`. -/
def put (d : Dict) (k : String) (v : Arg) : Dict :=
  if d.any (fun e => e.1 == k) then d.map (fun e => if e.1 == k then (k, v) else e) else d ++ [(k, v)]

/-- `d[k]`; none is a `KeyError`. -/
def get (d : Dict) (k : String) : Option Arg := (d.find? fun e => e.1 == k).map (·.2)

/-- The list `hist_list_keys` and the two dictionaries of the history, which are those of the object. -/
structure State where
  keys : List String
  pos : Dict
  kw : Dict

/-- rss_ringoccs/tools/pds3_write_series_v2.py 145-149. -/
def addKw (s : State) (e : String × Arg) : State :=
  if isHist e.2 && !s.keys.contains e.1 then ⟨s.keys ++ [e.1], s.pos, put s.kw e.1 e.2⟩ else s

/-- rss_ringoccs/tools/pds3_write_series_v2.py 150-154. -/
def addPos (s : State) (e : String × Arg) : State :=
  if isHist e.2 && !s.keys.contains e.1 then ⟨s.keys ++ [e.1], put s.pos e.1 e.2, s.kw⟩ else s

/-- rss_ringoccs/tools/pds3_write_series_v2.py 140-154: one of the histories found first; none is an exception. -/
def extra (s : State) (key : String) : Option State :=
  match get s.pos key with
  | some (.hist _ p k) => some (p.foldl addPos (k.foldl addKw s))
  | _ => none

/-- rss_ringoccs/tools/pds3_write_series_v2.py 126-134: the names of the histories among the positional arguments. -/
def direct (pos : Dict) : List String := (pos.filter fun e => isHist e.2).map (·.1)

/-- rss_ringoccs/tools/pds3_write_series_v2.py 120-156; `name` is `hist name`. -/
def collect (name : String) (pos kw : Dict) : Option State := (direct pos).foldlM extra ⟨name :: direct pos, pos, kw⟩

/-- A history as the label shows it: its name, its content, and its references with whether they say `above` (or `below`). -/
structure Section where
  name : String
  tag : Nat
  pos : Dict
  kw : Dict
  refs : List (String × Bool)

/-- rss_ringoccs/tools/pds3_write_series_v2.py 270-287: the references; `written` are the names of the histories written before. -/
def refs (written : List String) (d : Dict) : List (String × Bool) :=
  (d.filter fun e => isHist e.2).map fun e => (e.1, written.contains e.1)

/-- rss_ringoccs/tools/pds3_write_series_v2.py 251-324, the histories after the first; a name that is not a history among the positional arguments is a
`KeyError` or `TypeError` (none). -/
def others (pos : Dict) : List String → List String → Option (List Section)
  | _, [] => some []
  | w, k :: ks => match get pos k with
    | some (.hist t p q) => (others pos (w ++ [k]) ks).map (⟨k, t, p, q, refs w (p ++ q)⟩ :: ·)
    | _ => none

/-- What is written, and the dictionaries of the object afterwards. -/
structure Written where
  sections : List Section
  pos : Dict
  kw : Dict

/-- rss_ringoccs/tools/pds3_write_series_v2.py 107-161 with 240-325: the histories of a label; none is an exception. -/
def write (name : String) (tag : Nat) (pos kw : Dict) : Option Written :=
  match collect name pos kw with
  | none => none
  | some s => match others s.pos [name] s.keys.tail with
    | none => none
    | some l => some ⟨⟨name, tag, s.pos, s.kw, refs [] (s.pos ++ s.kw)⟩ :: l, s.pos, s.kw⟩

end Verif.HText
