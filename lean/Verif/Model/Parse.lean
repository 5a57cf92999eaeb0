import Verif.Model.Checks

/-!
# String setters

Strings are lists of characters.  `tmpl_String_Remove_Whitespace` and
`tmpl_String_Make_Lower_Case` are libtmpl functions whose source is not in
/repo; they are assumed to delete the C-locale white space characters and to
map `A`-`Z` to `a`-`z`.  The heap traffic of the functions (one duplicate of
the input string) is recorded as a list of events.
-/
namespace Verif

/-- Heap events of a setter: the temporary copy of the string. -/
inductive MemEv
  | alloc | free
  deriving DecidableEq, Repr

/-- Assumed `isspace` in the C locale (libtmpl, not in /repo). -/
def isSpaceC (c : Char) : Bool :=
  c = ' ' || c = '\t' || c = '\n' || c = '\r' || c.toNat = 11 || c.toNat = 12

/-- Assumed `tmpl_String_Remove_Whitespace`. -/
def removeWhitespace (s : List Char) : List Char := s.filter fun c => !isSpaceC c

/-- Lower case of one ASCII character. -/
def lowerC (c : Char) : Char :=
  if 65 ≤ c.toNat ∧ c.toNat ≤ 90 then Char.ofNat (c.toNat + 32) else c

/-- Assumed `tmpl_String_Make_Lower_Case`. -/
def makeLower (s : List Char) : List Char := s.map lowerC

/-- The two clean-up calls every setter makes on its copy. -/
def canon (s : List Char) : List Char := makeLower (removeWhitespace s)

/-- src/tau/rss_ringoccs_tau_set_window_type.c 9-106. `s = none` is the NULL
pointer, `dup` tells whether `tmpl_String_Duplicate` succeeds. -/
def setWindowType (L : Lib) (s : Option (List Char)) (dup : Bool) (t : TauD) :
    TauD × List MemEv :=
  if t.err.isSome then (t, []) else
  match s with
  | none => (t.fail .setWindowType 19, [])
  | some s =>
    if !dup then (t.fail .setWindowType 32, []) else
    let c := canon s
    let set (w : Win) : TauD := { t with normeq := L.normEq w, window := w }
    let t' : TauD :=
      if c = "rect".toList then set .rect
      else if c = "coss".toList then set .coss
      else if c = "kb20".toList then set .kb20
      else if c = "kb25".toList then set .kb25
      else if c = "kb35".toList then set .kb35
      else if c = "kbmd20".toList then set .kbmd20
      else if c = "kbmd25".toList then set .kbmd25
      else if c = "kbmd35".toList then set .kbmd35
      else { t.fail .setWindowType 86 with normeq := .fin (-1) }
    (t', [.alloc, .free])

/-- src/tau/rss_ringoccs_tau_set_psi_type.c 25-198.  `toUChar` is
`tmpl_String_To_UChar` (libtmpl; an arbitrary function into 0..255, the result
type `unsigned char` makes it so). -/
def setPsiType (toUChar : List Char → Fin 256) (s : Option (List Char)) (dup : Bool) (t : TauD) :
    TauD × List MemEv :=
  if t.err.isSome then (t, []) else
  match s with
  | none => (t.fail .setPsiType 40, [])
  | some s =>
    if !dup then (t.fail .setPsiType 57, []) else
    let c := canon s
    let set (p : Psi) : TauD := { t with psinum := p }
    let t' : TauD :=
      if c = "newtonriemann".toList then set .newtonRiemann
      else if c = "newtonfilon01".toList then set .newtonFilon01
      else if c = "newtonfilon11".toList then set .newtonFilon11
      else if c = "newtonfilon02".toList then set .newtonFilon02
      else if c = "newtonfilon12".toList then set .newtonFilon12
      else if c = "newtonperturb".toList then set .newtonPerturb
      else if c = "ellipse".toList then set .ellipticNewton
      else if c = "simplefft".toList then set .newtonSimpleFFT
      else if c = "newton4".toList then set .newton4
      else if c = "newton8".toList then set .newton8
      else if c = "newton16".toList then set .newton16
      else if c = "fresnel".toList then set .fresnel
      else if c.take 7 = "fresnel".toList then
        let n := (toUChar (c.drop 7)).val
        let t1 : TauD := { t with order := n, psinum := .legendre }
        if n = 0 then t1.fail .setPsiType 143
        else if n = 1 then { t1.fail .setPsiType 157 with order := 0 }
        else if n = 2 then { t1 with psinum := .fresnel, order := 0 }
        else { t1 with order := n - 1 }
      else { t.fail .setPsiType 186 with order := 0, psinum := .none }
    (t', [.alloc, .free])

/-- src/tau/rss_ringoccs_tau_set_range_from_string.c 24-142.  The copy of the
string is never freed (there is no `free` before line 142), and the result of
`tmpl_String_Duplicate` is not checked: its failure is NULL passed to string
functions. -/
def setRange (s : Option (List Char)) (dup : Bool) (t : TauD) : Res (TauD × List MemEv) :=
  if t.err.isSome then .ok (t, []) else
  match s with
  | none => .ok (t.fail .setRange 36, [])
  | some s =>
    if !dup then .ub .stringNull else
    let c := canon s
    let set (a b : ℚ) : TauD := { t with range0 := .fin a, range1 := .fin b }
    let t' : TauD :=
      if c = "all".toList then set 1 400000
      else if c = "besselbarnard".toList ∨ c = "bessel-barnard".toList then set 120210 120330
      else if c = "cringripples".toList then set 77690 77760
      else if c = "encke".toList ∨ c = "enckegap".toList then set 132900 134200
      else if c = "herschel".toList ∨ c = "herschelgap".toList then set 118100 118380
      else if c = "huygens".toList ∨ c = "huygensringlet".toList then set 117650 117950
      else if c = "janusepimetheus".toList then set 96200 96800
      else if c = "jeffreys".toList ∨ c = "jeffreysgap".toList then set 118900 119000
      else if c = "kuiper".toList ∨ c = "kuipergap".toList then set 119300 119500
      else if c = "maxwell".toList ∨ c = "maxwellringlet".toList then set 87410 87610
      else if c = "russell".toList ∨ c = "russellgap".toList then set 118550 118660
      else if c = "titan".toList ∨ c = "titanringlet".toList then set 77870 77930
      else { t.fail .setRange 135 with range0 := .fin (-1), range1 := .fin (-1) }
    .ok (t', [.alloc])

end Verif
