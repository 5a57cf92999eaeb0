import Verif.Model.Transform

/-! Specification of the strings understood by the setters (C17-C20). -/
namespace Verif.Spec

/-- White space of the C locale. -/
def Blank (c : Char) : Prop := c ∈ [' ', '\t', '\n', '\r', Char.ofNat 11, Char.ofNat 12]

/-- `d` is `c` in lower case (ASCII letters only). -/
def LowerOf (c d : Char) : Prop :=
  (¬ ('A' ≤ c ∧ c ≤ 'Z') ∧ d = c) ∨ ('A' ≤ c ∧ c ≤ 'Z' ∧ d.toNat = c.toNat + 32)

/-- The user's string `s` is the name `n` up to letter case and white space. -/
inductive Matches : List Char → List Char → Prop
  | nil : Matches [] []
  | blank {c s n} : Blank c → Matches s n → Matches (c :: s) n
  | char {c d s n} : ¬ Blank c → LowerOf c d → Matches s n → Matches (c :: s) (d :: n)

/-- Documented window names. -/
def windowNames : List (String × Win) :=
  [("rect", .rect), ("coss", .coss), ("kb20", .kb20), ("kb25", .kb25), ("kb35", .kb35),
   ("kbmd20", .kbmd20), ("kbmd25", .kbmd25), ("kbmd35", .kbmd35)]

/-- Documented method names without the numbered Fresnel methods. -/
def methodNames : List (String × Psi) :=
  [("newtonriemann", .newtonRiemann), ("newtonfilon01", .newtonFilon01),
   ("newtonfilon11", .newtonFilon11), ("newtonfilon02", .newtonFilon02),
   ("newtonfilon12", .newtonFilon12), ("newtonperturb", .newtonPerturb),
   ("ellipse", .ellipticNewton), ("simplefft", .newtonSimpleFFT), ("newton4", .newton4),
   ("newton8", .newton8), ("newton16", .newton16), ("fresnel", .fresnel)]

/-- Documented radial features and their radii in kilometres. -/
def rangeNames : List (String × ℚ × ℚ) :=
  [("all", 1, 400000), ("besselbarnard", 120210, 120330), ("bessel-barnard", 120210, 120330),
   ("cringripples", 77690, 77760), ("encke", 132900, 134200), ("enckegap", 132900, 134200),
   ("herschel", 118100, 118380), ("herschelgap", 118100, 118380),
   ("huygens", 117650, 117950), ("huygensringlet", 117650, 117950),
   ("janusepimetheus", 96200, 96800), ("jeffreys", 118900, 119000),
   ("jeffreysgap", 118900, 119000), ("kuiper", 119300, 119500), ("kuipergap", 119300, 119500),
   ("maxwell", 87410, 87610), ("maxwellringlet", 87410, 87610), ("russell", 118550, 118660),
   ("russellgap", 118550, 118660), ("titan", 77870, 77930), ("titanringlet", 77870, 77930)]

/-- The transform that each method of the Newton family (with a point-by-point
transform) is meant to use. -/
def transformOf : Psi → Option Xf
  | .newtonRiemann => some .riemann
  | .newtonFilon01 => some .filon01
  | .newtonFilon11 => some .filon11
  | .newtonFilon02 => some .filon02
  | .newtonFilon12 => some .filon12
  | .ellipticNewton => some .elliptical
  | .newtonPerturb => some .perturbed
  | _ => none

/-- The same for the methods that interpolate the phase. -/
def interpTransformOf : Psi → Option Xf
  | .newton4 => some .newton4
  | .newton8 => some .newton8
  | .newton16 => some .newton16
  | _ => none

/-- Methods that have an implementation. -/
def Implemented (p : Psi) : Prop :=
  p ∉ [Psi.ellipticNewton4, Psi.ellipticNewton8, Psi.ellipticNewton16, Psi.none]

end Verif.Spec
