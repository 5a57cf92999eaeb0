import Mathlib.Algebra.Order.Ring.Rat
import Mathlib.Tactic.Linarith

/-!
# Specification of gaps
-/
namespace Verif.Geo.Spec

/-- The polar equation of an ellipse: `c` is the cosine of the true anomaly. -/
def OnEllipse (a e c r : ℚ) : Prop := r * (1 + e * c) = a * (1 - e ^ 2)

/-- Row `i` is the only one whose radius is closest to `r`. -/
def Closest (rho : List ℚ) (r : ℚ) (i : Nat) : Prop :=
  i < rho.length ∧ ∀ j, j < rho.length → j ≠ i → |rho.getD i 0 - r| < |rho.getD j 0 - r|

/-- Intervals that begin and end in increasing order. -/
def Ordered (l : List (ℚ × ℚ)) : Prop :=
  (∀ g ∈ l, g.1 < g.2) ∧ l.Pairwise fun g h => g.1 < h.1 ∧ g.2 < h.2

/-- The point with radius `r` and time `s` lies on the polygon through the samples. -/
def OnPolygon (rho t : List ℚ) (r s : ℚ) : Prop :=
  ∃ (i : Nat) (w : ℚ), i + 1 < rho.length ∧ i + 1 < t.length ∧ 0 ≤ w ∧ w ≤ 1 ∧
    r = (1 - w) * rho.getD i 0 + w * rho.getD (i + 1) 0 ∧ s = (1 - w) * t.getD i 0 + w * t.getD (i + 1) 0

end Verif.Geo.Spec

namespace Verif.Geo.Spec

/-- The ranges of the edges of the gaps: least and greatest radius of the inner edge, of the outer edge (semimajor axis minus and
plus its product with the eccentricity). -/
structure Edges where
  innerMin : ℚ
  innerMax : ℚ
  outerMin : ℚ
  outerMax : ℚ
  deriving DecidableEq

/-- The gaps of the rings by name, with the ringlets inside them cut out. -/
def knownGaps : List Edges := [
  ⟨77744.78, 77751, 77849.74, 77884.52⟩, -- Colombo, inside the Titan ringlet
  ⟨77863.01, 77917.41, 77921.12, 77930.9⟩, -- Colombo, outside
  ⟨87342.77, 87342.77, 87461.36, 87499.22⟩, -- Maxwell, inside the ringlet
  ⟨87481.34, 87597.38, 87609.01, 87611.23⟩, -- Maxwell, outside
  ⟨117670, 117670, 117777.74, 117833.36⟩, -- Huygens, inside the ringlet
  ⟨117795.62, 117851.68, 117899.41, 117914.67⟩, -- Huygens, up to the Strange ringlet
  ⟨117909.37, 117924.17, 117928.7, 117933.1⟩, -- Huygens, outside
  ⟨118180.15, 118196.69, 118232.81, 118235.79⟩, -- Herschel, inside the ringlet
  ⟨118261.49, 118265.01, 118283.23, 118283.79⟩, -- Herschel, outside
  ⟨118582.32, 118597.52, 118628.29, 118628.51⟩, -- Russell
  ⟨118926.37, 118932.89, 118966.62, 118966.78⟩, -- Jeffreys
  ⟨119841.53, 119848.03, 120035.34, 120037.72⟩] -- Laplace, inside the ringlet

/-- The edges of the gap `g` are in their ranges. -/
def Within (p : Edges) (g : ℚ × ℚ) : Prop := p.innerMin ≤ g.1 ∧ g.1 ≤ p.innerMax ∧ p.outerMin ≤ g.2 ∧ g.2 ≤ p.outerMax

end Verif.Geo.Spec
