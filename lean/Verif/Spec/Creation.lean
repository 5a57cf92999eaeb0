import Verif.Model.Create

/-! Specification of an object created from a DLP object (C03). -/
namespace Verif.Spec

/-- Element `n` of the array behind a pointer, if there is one. -/
def elem {α : Type} (p : Option (List α)) (n : Nat) : Option α := p.bind (·[n]?)

/-- The DLP members that the documentation says are copied verbatim, and the
tau members they go to. -/
def verbatim : Fld → Option DFld
  | .rho => some .rho | .phi => some .phi | .B => some .B | .D => some .D
  | .rhoDot => some .rhoDot | .tOet => some .tOet | .tRet => some .tRet | .tSet => some .tSet
  | .rhoCorrPole => some .rhoCorrPole | .rhoCorrTiming => some .rhoCorrTiming
  | .phiRl => some .phiRl | .rx => some .rx | .ry => some .ry | .rz => some .rz
  | _ => none

/-- A DLP object whose arrays all have the advertised number of elements
(`raw_tau_threshold_vals` is not used and may be anything). -/
def WellFormed (d : DLP) : Prop :=
  ∀ f, f ≠ .rawTauThreshold → ∃ l, d.arr f = some l ∧ l.length = d.arrSize

/-- What the tau object made from `d` has to contain. -/
structure CreatedFrom (N : Num Dbl Cpx) (d : DLP) (res : Dbl) (t : TauD) : Prop where
  size : t.arrSize = d.arrSize
  resolution : t.res = res
  copied : ∀ f g, verbatim f = some g → t.arr f = d.arr g
  lenIn : ∃ l, t.carr .tIn = some l ∧ l.length = d.arrSize
  lenK : ∃ l, t.arr .k = some l ∧ l.length = d.arrSize
  lenF : ∃ l, t.arr .F = some l ∧ l.length = d.arrSize
  /-- the complex amplitude is sqrt(power) exp(-i phase) -/
  amplitude : ∀ n p ph, elem (d.arr .pNorm) n = some p → elem (d.arr .phaseDeg) n = some ph →
    elem (t.carr .tIn) n = some (N.polard (N.sqrt p) (N.neg ph))
  /-- the wavenumber of the sky frequency of the same row -/
  wavenumber : ∀ n f, elem (d.arr .fSky) n = some f →
    elem (t.arr .k) n = some (N.wavelengthToWavenumber (N.freqToWavelength f))
  /-- the Fresnel scale of the geometry of the same row -/
  fresnel : ∀ n f dd phi b, elem (d.arr .fSky) n = some f → elem (d.arr .D) n = some dd →
    elem (d.arr .phi) n = some phi → elem (d.arr .B) n = some b →
    elem (t.arr .F) n = some (N.cylFresnelScaleDeg (N.freqToWavelength f) dd phi b)
  spacing : ∀ r0 r1, elem (d.arr .rho) 0 = some r0 → elem (d.arr .rho) 1 = some r1 →
    t.dx = N.sub r1 r0
  /-- nothing has been reconstructed yet -/
  pristine : t.arr .w = none ∧ t.arr .tauThreshold = none ∧ t.carr .tOut = none ∧
    t.carr .tFwd = none ∧ t.start = 0 ∧ t.nUsed = 0

/-- The documented defaults of a new tau object: modified Kaiser-Bessel window (2.0),
Newton8, normalisation and b-factor on, no forward model, Allan deviation 2e-13,
cylindrical unperturbed geometry, requested range 1 to 400000 km. -/
structure DefaultSettings (t : TauD) : Prop where
  window : t.window = .kbmd20
  method : t.psinum = .newton8
  norm : t.useNorm = true
  bfac : t.bfac = true
  fwd : t.useFwd = false
  sigma : t.sigma = .fin (2 / 10 ^ 13)
  ecc : t.ecc = .fin 0
  peri : t.peri = .fin 0
  perturb : t.perturb = List.replicate 5 (.fin 0)
  requested : t.req0 = .fin 1 ∧ t.req1 = .fin 400000

end Verif.Spec
