import Verif.Model.Dlp

/-!
# Profiles of both directions of a chord

Simplifications: as in `Verif.Model.Dlp`; the deep copies are values; the rest of the attributes is left out.
-/
namespace Verif.Cal
open Verif.Rsr Verif.Geo

/-- The arrays of geometry (`geo…`), raw data (`raw…`) and calibration (`cal…`, `iqC`) that a profile is made from. -/
structure Piece where
  geoSpm : List ℚ
  geoRho : List ℚ
  geoDot : List ℚ
  geoCols : List (List ℚ)
  rawSpm : List ℚ
  iqM : List (ℚ × ℚ)
  iqC : List (ℚ × ℚ)
  calSpm : List ℚ
  calCols : List (List ℚ)
  dir : Dir
  deriving DecidableEq

/-- rss_ringoccs/calibration/dlp_class.py 414-427: the arrays of the caller's instances are replaced. -/
def trimPiece (p : Piece) : Py Piece := do
  let hi ← pyMaxL p.geoSpm
  let lo ← pyMinL p.geoSpm
  if p.rawSpm.any (fun t => hi < t) || p.rawSpm.any (fun t => t < lo) then
    let ind1 ← firstIndex (fun t => t = p.geoSpm.getD 0 0) p.rawSpm
    let ind2 ← firstIndex (fun t => t = p.geoSpm.getD (p.geoSpm.length - 1) 0) p.rawSpm
    pure { p with rawSpm := slice p.rawSpm ind1 ind2, iqM := slice p.iqM ind1 ind2, iqC := slice p.iqC ind1 ind2 }
  else pure p

/-- rss_ringoccs/calibration/dlp_class.py 511-515 and 548-552. -/
def pieceDir (rho : List ℚ) : Py Dir :=
  if rho.length < 2 then .error .index
  else .ok (if rho.getD 1 0 - rho.getD 0 0 < 0 then .ingress else .egress)

/-- What is made into `dlp_ing` and `dlp_egr`. -/
structure Pieces where
  ing : Option Piece
  egr : Option Piece
  deriving DecidableEq

/-- rss_ringoccs/calibration/dlp_class.py 400-559 up to the construction of the profiles: the pieces, and the caller's arrays
afterwards. -/
def createPieces (p0 : Piece) : Py (Pieces × Piece) := do
  let p ← trimPiece p0
  match p.dir with
  | .ingress => pure (⟨some p, none⟩, p)
  | .egress => pure (⟨none, some p⟩, p)
  | .both =>
    match signChanges p.geoDot with
    | [] => .error .index
    | i :: _ => do
      if p.geoSpm.length ≤ i + 1 then .error .index
      else
        let t := p.geoSpm.getD (i + 1) 0
        let gI ← firstIndex (fun x => x = t - 1) p.geoSpm
        let rI ← firstIndex (fun x => x = t - 1) p.rawSpm
        let cI ← firstIndex (fun x => x = t - 1) p.calSpm
        let gE ← firstIndex (fun x => x = t + 1) p.geoSpm
        let rE ← firstIndex (fun x => x = t + 1) p.rawSpm
        let cE ← firstIndex (fun x => x = t + 1) p.calSpm
        let dI ← pieceDir (p.geoRho.take gI)
        let dE ← pieceDir (p.geoRho.drop gE)
        let ing : Piece := ⟨p.geoSpm.take gI, p.geoRho.take gI, p.geoDot.take gI, p.geoCols.map (·.take gI), p.rawSpm.take rI,
          p.iqM.take rI, p.iqC.take rI, p.calSpm.take cI, p.calCols.map (·.take cI), dI⟩
        let egr : Piece := ⟨p.geoSpm.drop gE, p.geoRho.drop gE, p.geoDot.drop gE, p.geoCols.map (·.drop gE), p.rawSpm.drop rE,
          p.iqM.drop rE, p.iqC.drop rE, p.calSpm.drop cE, p.calCols.map (·.drop cE), dE⟩
        pure (⟨some ing, some egr⟩, p)

end Verif.Cal
