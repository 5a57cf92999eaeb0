import Mathlib.Analysis.SpecialFunctions.Pow.Real
import Mathlib.Analysis.SpecialFunctions.Complex.Arg
import Mathlib.Algebra.Order.Floor.Ring

/-!
# Elements of an orbit

Simplifications: real numbers with exact arithmetic; a division by 0 is 0 (NumPy: infinity or NaN).
-/
namespace Verif.Orb
open Real

/-- The arguments `GM,R_eq,J2,J4,J6`. -/
structure Planet where
  GM : ℝ
  R : ℝ
  J2 : ℝ
  J4 : ℝ
  J6 : ℝ

/-- rss_ringoccs/tools/satellite_tools.py 20-31. -/
noncomputable def meanMotion (p : Planet) (a e i : ℝ) : ℝ :=
  √(p.GM / a ^ 3) * (1 + 3 / 4 * p.J2 * (p.R / a) ^ 2 - 15 / 16 * p.J4 * (p.R / a) ^ 4 + 35 / 32 * p.J6 * (p.R / a) ^ 6
    - 9 / 32 * p.J2 ^ 2 * (p.R / a) ^ 4 + 45 / 64 * p.J2 * p.J4 * (p.R / a) ^ 6 + 27 / 128 * p.J2 ^ 3 * (p.R / a) ^ 6
    + 3 * p.J2 * e ^ 2 * (p.R / a) ^ 2 - 12 * p.J2 * i ^ 2 * (p.R / a) ^ 2)

/-- rss_ringoccs/tools/satellite_tools.py 36-43: `pperi`. -/
noncomputable def periRate (p : Planet) (a e i : ℝ) : ℝ :=
  √(p.GM / a ^ 3) * (3 / 2 * p.J2 * (p.R / a) ^ 2 - 15 / 4 * p.J4 * (p.R / a) ^ 4 + 105 / 16 * p.J6 * (p.R / a) ^ 6
    - 45 / 32 * p.J2 * p.J4 * (p.R / a) ^ 6 + 27 / 64 * p.J2 ^ 3 * (p.R / a) ^ 6
    + 3 * p.J2 * e ^ 2 * (p.R / a) ^ 2 - 3 * p.J2 * i ^ 2 * (p.R / a) ^ 2)

/-- rss_ringoccs/tools/satellite_tools.py 46-54: `pnoeu`. -/
noncomputable def nodeRate (p : Planet) (a e i : ℝ) : ℝ :=
  √(p.GM / a ^ 3) * (-(3 / 2) * p.J2 * (p.R / a) ^ 2 + 15 / 4 * p.J4 * (p.R / a) ^ 4 - 105 / 16 * p.J6 * (p.R / a) ^ 6
    + 9 / 4 * p.J2 ^ 2 * (p.R / a) ^ 4 - 315 / 32 * p.J2 * p.J4 * (p.R / a) ^ 6 - 351 / 64 * p.J2 ^ 3 * (p.R / a) ^ 6
    - 3 * p.J2 * e ^ 2 * (p.R / a) ^ 2 + 3 / 4 * p.J2 * i ^ 2 * (p.R / a) ^ 2)

/-- rss_ringoccs/tools/satellite_tools.py 62-65: `eta2`. -/
noncomputable def eta2 (p : Planet) (a : ℝ) : ℝ :=
  p.GM / a ^ 3 * (1 - 2 * p.J2 * (p.R / a) ^ 2 + 75 / 8 * p.J4 * (p.R / a) ^ 4 - 175 / 8 * p.J6 * (p.R / a) ^ 6)

/-- rss_ringoccs/tools/satellite_tools.py 67-70: `chi2`. -/
noncomputable def chi2 (p : Planet) (a : ℝ) : ℝ :=
  p.GM / a ^ 3 * (1 + 15 / 2 * p.J2 * (p.R / a) ^ 2 - 175 / 8 * p.J4 * (p.R / a) ^ 4 + 735 / 16 * p.J6 * (p.R / a) ^ 6)

/-- rss_ringoccs/tools/satellite_tools.py 76-83. -/
noncomputable def freqN0 (p : Planet) (a : ℝ) : ℝ :=
  p.GM / a ^ 3 * (1 + 1.5 * p.J2 * (p.R / a) ^ 2 - 15 / 8 * p.J4 * (p.R / a) ^ 4 + 35 / 16 * p.J6 * (p.R / a) ^ 6)

/-- rss_ringoccs/tools/satellite_tools.py 87-103: `np.arctan2(y,x)`. -/
noncomputable def arctan (x y : ℝ) : ℝ := Complex.arg ⟨x, y⟩

/-- `x % y` of Python, for `y` not 0. -/
noncomputable def fmod (x y : ℝ) : ℝ := x - y * ⌊x / y⌋

/-- rss_ringoccs/tools/satellite_tools.py 106-110. -/
noncomputable def amodulo (x y : ℝ) : ℝ := if x < 0 then fmod x y + y else fmod x y

/-- `n`, `kappa`, `nu`, `eta2`, `chi2`. -/
structure Rates where
  n : ℝ
  kappa : ℝ
  nu : ℝ
  eta2 : ℝ
  chi2 : ℝ

/-- rss_ringoccs/tools/satellite_tools.py 365-370. -/
noncomputable def rates (p : Planet) (a e i : ℝ) : Rates where
  n := meanMotion p a e i
  kappa := meanMotion p a e i - periRate p a e i
  nu := meanMotion p a e i - nodeRate p a e i
  eta2 := eta2 p a
  chi2 := chi2 p a

/-- rss_ringoccs/tools/satellite_tools.py 372. -/
noncomputable def Rates.alpha1 (w : Rates) : ℝ := 1 / 3 * (2 * w.nu + w.kappa)

/-- rss_ringoccs/tools/satellite_tools.py 373. -/
def Rates.alpha2 (w : Rates) : ℝ := 2 * w.nu - w.kappa

/-- rss_ringoccs/tools/satellite_tools.py 374. -/
noncomputable def Rates.alph2 (w : Rates) : ℝ := w.alpha1 * w.alpha2

/-- Cylindrical coordinates and their rates, or corrections of them. -/
structure Cyl where
  r : ℝ
  L : ℝ
  z : ℝ
  vr : ℝ
  vL : ℝ
  vz : ℝ

/-- rss_ringoccs/tools/satellite_tools.py 266-280. -/
noncomputable def cylindrical (x y z vx vy vz : ℝ) : Cyl :=
  let r := √(x ^ 2 + y ^ 2)
  let L := arctan x y
  { r := r, L := L, z := z, vr := vx * cos L + vy * sin L, vL := (-vx * sin L + vy * cos L) / r, vz := vz }

/-- `a`, `e`, `i`, `lambda_`, `aaa`, `bbb`. -/
structure Elem where
  a : ℝ
  e : ℝ
  i : ℝ
  lam : ℝ
  A : ℝ
  B : ℝ

/-- rss_ringoccs/tools/satellite_tools.py 316-328. -/
noncomputable def solve (o c : Cyl) (w : Rates) : Elem :=
  let a := (o.r - c.r) / (1 - (o.vL - w.n - c.vL) / (2 * w.n))
  { a := a
    e := √(((o.vL - w.n - c.vL) / (2 * w.n)) ^ 2 + ((o.vr - c.vr) / (a * w.kappa)) ^ 2)
    lam := o.L - c.L - 2 * (w.n / w.kappa) * (o.vr - c.vr) / (a * w.kappa)
    A := arctan (1 - (o.r - c.r) / a) ((o.vr - c.vr) / (a * w.kappa))
    i := √(((o.z - c.z) / a) ^ 2 + ((o.vz - c.vz) / (a * w.nu)) ^ 2)
    B := arctan ((o.vz - c.vz) / w.nu) (o.z - c.z) }

/-- rss_ringoccs/tools/satellite_tools.py 331-362. -/
noncomputable def corrections (w : Rates) (l : Elem) : Cyl where
  r := l.a * l.e ^ 2 * (3 / 2 * (w.eta2 / w.kappa ^ 2) - 1 - 0.5 * (w.eta2 / w.kappa ^ 2) * cos (2 * l.A))
    + l.a * l.i ^ 2 * (3 * w.chi2 / (4 * w.kappa ^ 2) - 1 + w.chi2 / (4 * w.alph2) * cos (2 * l.B))
  L := (3 / 4 + w.eta2 / (2 * w.kappa ^ 2)) * (w.n / w.kappa) * l.e ^ 2 * sin (2 * l.A)
    - 1 / 4 * (w.chi2 / w.alph2) * (w.n / w.nu) * l.i ^ 2 * sin (2 * l.B)
  vr := l.a * w.kappa * (w.eta2 / w.kappa ^ 2 * l.e ^ 2 * sin (2 * l.A))
    - l.a * l.i ^ 2 * (w.chi2 * w.nu / (2 * w.alph2)) * sin (2 * l.B)
  vL := w.n * l.e ^ 2 * (7 / 2 - 3 * (w.eta2 / w.kappa ^ 2) - w.kappa ^ 2 / (2 * w.n ^ 2)
      + (3 / 2 + w.eta2 / w.kappa ^ 2) * cos (2 * l.A))
    + w.n * l.i ^ 2 * (2 - w.kappa ^ 2 / (2 * w.n ^ 2) - 1.5 * (w.chi2 / w.kappa ^ 2) - 0.5 * (w.chi2 / w.alph2) * cos (2 * l.B))
  z := l.a * l.i * l.e * (0.5 * (w.chi2 / (w.kappa * w.alpha1)) * sin (l.A + l.B)
    - 1.5 * (w.chi2 / (w.kappa * w.alpha2)) * sin (l.B - l.A))
  vz := l.a * l.i * l.e * (0.5 * (w.chi2 * (w.kappa + w.nu) / (w.kappa * w.alpha1)) * cos (l.A + l.B)
    + 1.5 * (w.chi2 * (w.kappa - w.nu) / (w.kappa * w.alpha2)) * cos (l.B - l.A))

/-- rss_ringoccs/tools/satellite_tools.py 312-382: one turn of the loop, from the corrections and the rates to the elements, the
corrections and the rates. -/
noncomputable def step (p : Planet) (o : Cyl) (s : Elem × Cyl × Rates) : Elem × Cyl × Rates :=
  let l := solve o s.2.1 s.2.2
  (l, corrections s.2.2 l, rates p l.a l.e l.i)

/-- rss_ringoccs/tools/satellite_tools.py 283-309 and the loop of 312-382, which has 101 turns; the elements of the first argument are
not used. -/
noncomputable def orbit (p : Planet) (o : Cyl) : Elem :=
  ((step p o)^[101] (⟨o.r, 0, 0, 0, 0, 0⟩, ⟨0, 0, 0, 0, 0, 0⟩, rates p o.r 0 0)).1

/-- rss_ringoccs/tools/satellite_tools.py 406-430. -/
noncomputable def axisFromMomentum (p : Planet) (r hz : ℝ) : ℝ := (fun r0 => √(hz / √(freqN0 p r0)))^[101] r

/-- rss_ringoccs/tools/satellite_tools.py 389 to 391 and 399 to 401, for an angle in radians. -/
noncomputable def outAngle (x : ℝ) : ℝ := amodulo (fmod (x * (180 / π) + 360) 360) 360

/-- rss_ringoccs/tools/satellite_tools.py 213-440: `a, e, i, gomega, tomega, lambda`. -/
noncomputable def posiGeo (p : Planet) (x y z vx vy vz : ℝ) : List ℝ :=
  let o := cylindrical x y z vx vy vz
  let l := orbit p o
  [axisFromMomentum p o.r (x * vy - y * vx) * (1 + l.e * l.e + l.i * l.i), l.e, l.i * (180 / π), outAngle (l.lam - l.B),
    outAngle (l.lam - l.A), outAngle l.lam]

/-- How the conversion of elements ends when it does not return. -/
inductive Fail where
  | attribute
  | index
  | name
  deriving DecidableEq, Repr

/-- The elements in radians: `a`, `e`, `i`, `gomega`, `tomega`, `lambda_`. -/
structure Angles where
  a : ℝ
  e : ℝ
  i : ℝ
  gom : ℝ
  tom : ℝ
  lam : ℝ

/-- rss_ringoccs/tools/satellite_tools.py 161-197: the equations 2 to 7, from the rates of lines 145-153. -/
noncomputable def geoCyl (w : Rates) (l : Angles) : Cyl where
  r := l.a * (1 - l.e * cos (l.lam - l.tom)
    + l.e ^ 2 * (3 * w.eta2 / (2 * w.kappa ^ 2) - 1 - w.eta2 / (2 * w.kappa ^ 2) * cos (2 * (l.lam - l.tom)))
    + l.i ^ 2 * (3 * w.chi2 / (4 * w.kappa ^ 2) - 1 + w.chi2 / (4 * w.alph2) * cos (2 * (l.lam - l.gom))))
  L := l.lam + 2 * l.e * (w.n / w.kappa) * sin (l.lam - l.tom)
    + l.e ^ 2 * (3 / 4 + w.eta2 / (2 * w.kappa ^ 2)) * (w.n / w.kappa) * sin (2 * (l.lam - l.tom))
    - l.i ^ 2 * (w.chi2 / (4 * w.alph2)) * (w.n / w.nu) * sin (2 * (l.lam - l.gom))
  z := l.a * l.i * (sin (l.lam - l.gom)
    + l.e * (w.chi2 / (2 * w.kappa * w.alpha1)) * sin (2 * l.lam - l.tom - l.gom)
    - l.e * (3 * w.chi2 / (2 * w.kappa * w.alpha2)) * sin (l.tom - l.gom))
  vr := l.a * w.kappa * (l.e * sin (l.lam - l.tom)
    + l.e ^ 2 * (w.eta2 / w.kappa ^ 2) * sin (2 * (l.lam - l.tom))
    - l.i ^ 2 * (w.chi2 / (2 * w.alph2) * (w.nu / w.kappa) * sin (2 * (l.lam - l.gom))))
  vL := w.n * (1 + 2 * l.e * cos (l.lam - l.tom)
    + l.e ^ 2 * (7 / 2 - 3 * w.eta2 / w.kappa ^ 2 - w.kappa ^ 2 / (2 * w.n ^ 2)
      + (3 / 2 + w.eta2 / w.kappa ^ 2) * cos (2 * (l.lam - l.tom)))
    + l.i ^ 2 * (2 - w.kappa ^ 2 / (2 * w.n ^ 2) - 3 / 2 * (w.chi2 / w.kappa ^ 2)
      - w.chi2 / (2 * w.alph2) * cos (2 * (l.lam - l.gom))))
  vz := l.a * l.i * w.nu * (cos (l.lam - l.gom)
    + l.e * (w.chi2 * (w.kappa + w.nu) / (2 * w.kappa * w.alpha1 * w.nu)) * cos (2 * l.lam - l.tom - l.gom)
    + l.e * (3 / 2 * (w.chi2 * (w.kappa - w.nu)) / (w.kappa * w.alpha2 * w.nu)) * cos (l.tom - l.gom))

/-- rss_ringoccs/tools/satellite_tools.py 201-207: `sv[1:7]`. -/
noncomputable def geoCart (c : Cyl) : List ℝ :=
  [c.r * cos c.L, c.r * sin c.L, c.z, c.vr * cos c.L - c.r * c.vL * sin c.L, c.vr * sin c.L + c.r * c.vL * cos c.L, c.vz]

/-- rss_ringoccs/tools/satellite_tools.py 138-143: the elements of the caller, with angles in degrees. -/
noncomputable def toAngles (a e i gom tom lam : ℝ) : Angles :=
  ⟨a, e, i * (π / 180), gom * (π / 180), tom * (π / 180), lam * (π / 180)⟩

/-- rss_ringoccs/tools/satellite_tools.py 132-210: `geo_posi`, for elements with angles in degrees.  `hasDpi` says whether NumPy has a name `dpi`
(line 135), `flat` whether the list of line 132 has the elements as its own entries (it has the whole of `elemINPUT` as one, so that `elem[2]` of
line 139 is beyond its end) and `hasCos` whether the module has a name `cos` (lines 195 and 197).  Line 208 keeps `sv[1:6]`. -/
noncomputable def geoPosiWith (hasDpi flat hasCos : Bool) (p : Planet) (a e i gom tom lam : ℝ) : Except Fail (List ℝ) :=
  if !hasDpi then .error .attribute
  else if !flat then .error .index
  else if !hasCos then .error .name
  else .ok ((geoCart (geoCyl (rates p (toAngles a e i gom tom lam).a (toAngles a e i gom tom lam).e (toAngles a e i gom tom lam).i)
    (toAngles a e i gom tom lam))).take 5)

/-- rss_ringoccs/tools/satellite_tools.py 114-210: NumPy has no `dpi`, the list is nested and `cos` is not imported (lines 1-17). -/
noncomputable def geoPosi (p : Planet) (a e i gom tom lam : ℝ) : Except Fail (List ℝ) := geoPosiWith false false false p a e i gom tom lam

end Verif.Orb
