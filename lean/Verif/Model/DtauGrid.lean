import Mathlib.Algebra.Order.Field.Basic

/-!
# The grid of differential optical depths

rss_ringoccs/tools/dtau_partsize.py.  The numbers are of an ordered field; a quotient with the divisor zero is NumPy's "not a number",
`none`.  `n(a, q)`, that is `a**-q`, the efficiencies of PyMieScatt, Simpson's rule of SciPy and `log10` are parameters.  The mask is taken
in the form `[mask]`, as NumPy before 1.23 reads it (the list as a tuple with one index).
-/
namespace Verif.Dtau

variable {R : Type} [Field R] [LinearOrder R]

/-- dtau_partsize.py 31-34, 59: what the imported libraries give. -/
structure Libs (R : Type) where
  /-- the diameters of `MieQ_withDiameterRange` between two bounds -/
  diameters : R → R → List R
  /-- the extinction efficiency for a wavelength and a diameter -/
  eff : R → R → R
  /-- the weights of Simpson's rule for the nodes -/
  weights : List R → List R
  /-- `a**-q` -/
  size : R → R → R
  log10 : R → R
  /-- `str(round(val, 8))` -/
  cell : Option R → List Char

/-- dtau_partsize.py 133-140: a radius and the three efficiencies, those of Ka, of X and of S. -/
structure Pt (R : Type) where
  a : R
  k : R
  x : R
  s : R

/-- dtau_partsize.py 130-140: none when one of the two lists is empty (`IndexError`). -/
def points (L : Libs R) (wK wX wS : R) (amins amaxs : List R) : Option (List (Pt R)) :=
  match amins.head?, amaxs.getLast? with
  | some lo, some hi => some ((L.diameters (2 * lo) (2 * hi)).map fun d => ⟨d / 2, L.eff wK d, L.eff wX d, L.eff wS d⟩)
  | _, _ => none

/-- dtau_partsize.py 179-183, `scipy.integrate.simpson(ys, x=xs)`: a sum with weights that depend on the nodes. -/
def simps (L : Libs R) (ys xs : List R) : R := ((L.weights xs).zipWith (· * ·) ys).sum

/-- dtau_partsize.py 60-71 and 72-82: the integrand, of `tau` and of `Delta tau`. -/
def integrand (L : Libs R) (q a Q : R) : R := a ^ 2 * Q * L.size a q

/-- dtau_partsize.py 187, 196-197: NumPy's quotient. -/
def quot (x y : R) : Option R := if y = 0 then none else some (x / y)

/-- dtau_partsize.py 177-183: the three integrals for one smallest radius: those of X, of Ka less X and of X less S. -/
def integrals (L : Libs R) (pts : List (Pt R)) (q amax amin : R) : R × R × R :=
  let clip := pts.filter fun p => decide (amin ≤ p.a) && decide (p.a ≤ amax)
  let xs := clip.map Pt.a
  (simps L (clip.map fun p => integrand L q p.a p.x) xs, simps L (clip.map fun p => integrand L q p.a (p.k - p.x)) xs,
    simps L (clip.map fun p => integrand L q p.a (p.x - p.s)) xs)

/-- dtau_partsize.py 187: the five cells of a line. -/
def cells (L : Libs R) (q amax amin : R) (t : R × R × R) : List (List Char) :=
  [some (L.log10 amin - 6), some (L.log10 amax - 6), some q, quot t.2.1 t.1, quot t.2.2 t.1].map L.cell

/-- dtau_partsize.py 160, 188: `",".join(..)` -/
def commas : List (List Char) → List Char
  | [] => []
  | [c] => c
  | c :: cs => c ++ ',' :: commas cs

/-- dtau_partsize.py 160: `h.ljust(12)` -/
def ljust12 (h : List Char) : List Char := h ++ List.replicate (12 - h.length) ' '

/-- dtau_partsize.py 159-160. -/
def heads : List (List Char) :=
  ["log10(a_min (mm) )".toList, "log10(a_max (mm) )".toList, "q".toList, "Delta tau KX".toList, "Delta tau XS".toList].map ljust12

/-- dtau_partsize.py 188, 196-202: what one run leaves: the lines of the file, and the two lists of rows that are returned. -/
structure Grid (R : Type) where
  lines : List (List Char)
  kx : List (List (Option R))
  xs : List (List (Option R))

/-- dtau_partsize.py 166-197: one slope; the lines are only written when `write`. -/
def slope (L : Libs R) (pts : List (Pt R)) (write : Bool) (amins : List R) (amax : R) (g : Grid R) (q : R) : Grid R :=
  let ts := amins.map fun amin => integrals L pts q amax amin
  { lines := if write then g.lines ++ (amins.zip ts).map fun m => commas (cells L q amax m.1 m.2) else g.lines
    kx := g.kx ++ [ts.map fun t => quot t.2.1 t.1]
    xs := g.xs ++ [ts.map fun t => quot t.2.2 t.1] }

/-- dtau_partsize.py 83-202, with the three wavelengths. -/
def predict (L : Libs R) (wK wX wS : R) (qs amins amaxs : List R) (write : Bool) : Option (Grid R) :=
  match points L wK wX wS amins amaxs with
  | none => none
  | some pts =>
    some (amaxs.foldl (fun g amax => qs.foldl (slope L pts write amins amax) g) ⟨if write then [commas heads] else [], [], []⟩)

/-- dtau_partsize.py 147, 152: `str(n)` of a number that is not negative. -/
def digits (n : Nat) : List Char := Nat.toDigits 10 n

/-- dtau_partsize.py 147-151: the part of the name for the real part, of which `re` is `int(np.real(m)*100)`. -/
def realPart (re : Nat) : List Char :=
  let t := digits re
  if t.length = 2 then t ++ ['0'] else if t.length = 1 then t ++ ['0', '0'] else t

/-- dtau_partsize.py 152-156: the part for the imaginary part; the second question is put to the text of the real part. -/
def imagPart (re im : Nat) : List Char :=
  let t := digits im
  if t.length = 2 then t ++ ['0'] else if (realPart re).length = 1 then t ++ ['0', '0'] else t

/-- dtau_partsize.py 158: the name of the file after the directory. -/
def fileName (re im : Nat) : List Char :=
  "/dtau_miescatt_partsize_grid_m".toList ++ realPart re ++ 'i' :: imagPart re im ++ ".csv".toList

/-- dtau_partsize.py 245-249: one curve of the figure: its index, the index of the greatest radius whose colour it has, and whether it is in the legend. -/
structure Curve where
  row : Nat
  colour : Nat
  label : Option (List Char)
  deriving DecidableEq

/-- dtau_partsize.py 236-241: one label and one colour for each greatest radius and slope; `lab` is the text of the radius. -/
def labels (lab : List (List Char)) (nq : Nat) : List (List Char × Nat) :=
  lab.zipIdx.flatMap fun t => List.replicate nq t

/-- dtau_partsize.py 243-249: `labels[i-1]` for `i = 0` is the last one. -/
def curves (lab : List (List Char)) (nq : Nat) : List Curve :=
  let ls := labels lab nq
  (List.range (nq * lab.length)).map fun i =>
    let here := ls.getD i ([], 0)
    let before := ls.getD (if i = 0 then ls.length - 1 else i - 1) ([], 0)
    ⟨i, here.2, if here.1 ≠ before.1 then some here.1 else none⟩

/-- dtau_partsize.py 254-258: the curves beside which a slope is written, with the index of the slope. -/
def slopeTexts (nmax nq : Nat) : List (Nat × Nat) := (List.range (nq * nmax)).filterMap fun i => if i < nq then some (i, i) else none

/-- dtau_partsize.py 252-253: the points of a curve that get a marker. -/
def markers (len : Nat) : List Nat := (List.range ((len + 49) / 50)).map (· * 50)

end Verif.Dtau
