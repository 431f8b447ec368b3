import Verif.Base.Pow
import Verif.Model.Ensi
import Verif.Model.Client.Calibrators

/-!
# src/client/Calibrator/Oi.cpp: correlations, transform, and which stations a grid point uses

The distance between two places (`Util::getDistance`) and the search for the nearest grid point (`KDTree`) are arguments. Debug output
and the file with removed stations are left out.
-/

set_option linter.unusedSectionVars false

namespace Gridpp.Client
open Fl Res

variable {K : Type} [Field K] [LinearOrder K] [IsStrictOrderedRing K]

/-- The options (src/client/Calibrator/Oi.cpp:10-112, src/client/Calibrator/Oi.h:23-65). `soar` is `mRhoType == RhoTypeSoar` and `boxcox` is
`mTransformType == TransformTypeBoxCox`. `mEpsilonC` is not used by any function. -/
structure OiOptions (K : Type) where
  hLength : Fl K
  vLength : Fl K
  wLength : Fl K
  wMin : Fl K
  minRho : Fl K
  soar : Bool
  boxcox : Bool
  lambda : Fl K
  boxCoxThreshold : Fl K
  maxLocations : Int
  maxElevDiff : Fl K
  landOnly : Bool
  crossValidate : Bool
  maxBytes : Fl K
  elevGradient : Fl K
  useEns : Bool
  minEns : Int
  epsilon : Fl K
  sigma : Fl K
  sigmaC : Fl K
  hLengthC : Fl K
  gamma : Fl K
  mu : Fl K
  delta : Fl K
  c : Fl K
  newDeltaVar : Fl K
  diagnose : Bool
  saveDiff : Bool
  extrapolate : Bool

/-! ### Correlations -/

/-- The factor for the vertical distance (src/client/Calibrator/Oi.cpp:1130-1138). -/
def oiVertical [HasExp K] (vLength vdist rho : Fl K) : Fl K :=
  if isValid vLength then
    if !isValid vdist then 0 else rho * Fl.exp (fin (-1 / 2) * (vdist / vLength) * (vdist / vLength))
  else rho

/-- `CalibratorOi::calcRho` (src/client/Calibrator/Oi.cpp:1123-1148). -/
def calcRho [HasExp K] (o : OiOptions K) (hdist vdist ldist : Fl K) : Fl K :=
  let h := hdist / o.hLength
  let rho := if o.soar then (1 + h) * Fl.exp (-h) else Fl.exp (fin (-1 / 2) * h * h)
  let rho := oiVertical o.vLength vdist rho
  let rho := if isValid o.wMin then rho * (1 - (1 - o.wMin) * ldist.abs) else rho
  if isValid o.wLength then rho * Fl.exp (fin (-1 / 2) * ldist * ldist / (o.wLength * o.wLength)) else rho

/-- A grid point. -/
structure OiPlace (K : Type) where
  lat : Fl K
  lon : Fl K
  elev : Fl K
  laf : Fl K
  deriving DecidableEq

/-- A station: location, transformed observation (`gObs`), `gCi`, `gRadarL`, nearest grid point (`gYi`, `gXi`) and its land fraction
(`gLafs`). -/
structure OiStation (K : Type) where
  lat : Fl K
  lon : Fl K
  elev : Fl K
  obs : Fl K
  ci : Fl K
  radar : Fl K
  y : Nat
  x : Nat
  laf : Fl K
  deriving DecidableEq

/-- `vdist` (src/client/Calibrator/Oi.cpp:461-463, 578-580, 589-591). The condition is `Util::isValid(a && Util::isValid(b))`: the argument is
a truth value, converted to 0 or 1. -/
def oiVdist (a b : Fl K) : Fl K := if isValid (if a.fne 0 && isValid b then (1 : Fl K) else 0) then a - b else MV

/-- `rho` between a station and the grid point (src/client/Calibrator/Oi.cpp:460-467, 577-584). -/
def oiRhoGrid [HasExp K] (o : OiOptions K) (dist : Fl K → Fl K → Fl K → Fl K → Res (Fl K)) (g : OiPlace K) (s : OiStation K) :
    Res (Fl K) := do
  let h ← dist s.lat s.lon g.lat g.lon
  ok (calcRho o h (oiVdist s.elev g.elev) (if isValid s.laf && isValid g.laf then s.laf - g.laf else 0))

/-- `lP(i, j)` (src/client/Calibrator/Oi.cpp:588-596); `laf` is that of the grid point. -/
def oiRhoStations [HasExp K] (o : OiOptions K) (dist : Fl K → Fl K → Fl K → Fl K → Res (Fl K)) (laf : Fl K) (s s' : OiStation K) :
    Res (Fl K) := do
  let h ← dist s.lat s.lon s'.lat s'.lon
  ok (calcRho o h (oiVdist s.elev s'.elev) (if isValid s.laf && isValid laf then s.laf - s'.laf else 0))

/-! ### Transform -/

/-- `CalibratorOi::transform` (src/client/Calibrator/Oi.cpp:1150-1160). -/
def oiTransform [FloorRing K] [HasExp K] (o : OiOptions K) (v : Fl K) : Fl K :=
  if !o.boxcox then v
  else
    let v := if v.le 0 then 0 else v
    if o.lambda.feq 0 then Fl.log v else (Fl.pow v o.lambda - 1) / o.lambda

/-- `CalibratorOi::invTransform` (src/client/Calibrator/Oi.cpp:1162-1178). -/
def oiInvTransform [FloorRing K] [HasExp K] (o : OiOptions K) (v : Fl K) : Fl K :=
  if !o.boxcox then v
  else
    let r := if o.lambda.feq 0 then Fl.exp v
      else
        let v := if v.lt (fin (-1) / o.lambda) then fin (-1) / o.lambda else v
        Fl.pow (1 + o.lambda * v) (1 / o.lambda)
    if r.le 0 then 0 else r

/-! ### Stations -/

/-- One station (src/client/Calibrator/Oi.cpp:243-256). `pars` are its parameters at the first time. -/
def oiStation [FloorRing K] [HasExp K] (o : OiOptions K) (near : Fl K → Fl K → Res (Nat × Nat)) (grid : Nat → Nat → OiPlace K)
    (lat lon elev : Fl K) (pars : List (Fl K)) : Res (OiStation K) := do
  assert (decide (0 < pars.length))
  let p0 ← vget pars 0
  let ci ← if pars.length = 2 then vget pars 1 else ok 1
  let radar ← if pars.length = 3 then vget pars 2 else ok 0
  let n ← near lat lon
  ok ⟨lat, lon, elev, oiTransform o p0, ci, radar, n.1, n.2, (grid n.1 n.2).laf⟩

/-- Is the nearest grid point not at the edge of a regular grid (src/client/Calibrator/Oi.cpp:258, 471)? -/
def oiInside (regular : Bool) (nY nX : Nat) (s : OiStation K) : Bool :=
  !regular || (decide (0 < s.x) && decide ((s.x : Int) < (nX : Int) - 1) && decide (0 < s.y) && decide ((s.y : Int) < (nY : Int) - 1))

/-- `hasValidElev` (src/client/Calibrator/Oi.cpp:261-265). -/
def oiElevOk (o : OiOptions K) (elev gridElev : Fl K) : Bool :=
  if isValid o.maxElevDiff then isValid elev && ((elev - gridElev).abs).lt o.maxElevDiff else true

/-- Is the station used at all (src/client/Calibrator/Oi.cpp:258-270)? -/
def oiKept (o : OiOptions K) (regular : Bool) (nY nX : Nat) (grid : Nat → Nat → OiPlace K) (s : OiStation K) : Bool :=
  oiInside regular nY nX s && isValid s.obs && oiElevOk o s.elev (grid s.y s.x).elev &&
    !(isValid s.laf && o.landOnly && s.laf.feq 0)

/-- `radiusFactor` (src/client/Calibrator/Oi.cpp:208). -/
def oiRadiusFactor [HasSqrt K] [HasExp K] (o : OiOptions K) : Fl K := Fl.sqrt (fin (-2) * Fl.log o.minRho)

/-- `gridSize` (src/client/Calibrator/Oi.cpp:168-179). `exact` is `Util::getDistance` without approximation. -/
def oiGridSize (exact : Fl K → Fl K → Fl K → Fl K → Res (Fl K)) (nY nX : Nat) (grid : Nat → Nat → OiPlace K) : Res (Fl K) :=
  if 1 < nY ∧ 1 < nX then exact (grid 0 0).lat (grid 0 0).lon (grid 1 0).lat (grid 1 0).lon else ok MV

/-- `gridpointRadius` and the check of the memory (src/client/Calibrator/Oi.cpp:213-229); `gS` is the number of stations. -/
def oiGridRadius [FloorRing K] [HasSqrt K] [HasExp K] (o : OiOptions K) (gridSize : Fl K) (gS : Nat) : Res Int := do
  let r ← Fl.truncInt (oiRadiusFactor o * o.hLength / gridSize)
  if isValid o.maxBytes && o.maxBytes.lt (Fl.ofInt (r * r) * fin 4 * fin 4 * Fl.ofNat gS) then error else ok r

/-- Is the grid point `(y, x)` in the square around the station (src/client/Calibrator/Oi.cpp:272-273)? -/
def oiCovers (r : Int) (nY nX : Nat) (s : OiStation K) (y x : Nat) : Bool :=
  decide (max 0 ((s.y : Int) - r) ≤ (y : Int)) && decide ((y : Int) < min (nY : Int) ((s.y : Int) + r)) &&
    decide (max 0 ((s.x : Int) - r) ≤ (x : Int)) && decide ((x : Int) < min (nX : Int) ((s.x : Int) + r))

/-- `gLocIndices[y][x]` (src/client/Calibrator/Oi.cpp:237-313): numbers of stations, in increasing order. `r` is `gridpointRadius` in a
regular grid. -/
def oiAssigned [HasSqrt K] [HasExp K] (o : OiOptions K) (dist : Fl K → Fl K → Fl K → Fl K → Res (Fl K)) (r : Option Int) (nY nX : Nat)
    (grid : Nat → Nat → OiPlace K) (stations : List (OiStation K)) (y x : Nat) : Res (List Nat) := do
  let bs ← mapM (fun i : Nat => do
    let s ← vget stations (i : Int)
    if oiKept o r.isSome nY nX grid s then
      match r with
      | some r => ok (if oiCovers r nY nX s y x then some i else none)
      | none => do
        let d ← dist s.lat s.lon (grid y x).lat (grid y x).lon
        ok (if d.lt (oiRadiusFactor o * o.hLength) then some i else none)
    else ok none) (List.range stations.length)
  ok (bs.filterMap id)

/-! ### The stations used at a grid point -/

/-- `lRhos0` (src/client/Calibrator/Oi.cpp:453-476). The pairs hold the number of the station instead of its position in `lLocIndices0`. -/
def oiCandidates [HasExp K] (o : OiOptions K) (dist : Fl K → Fl K → Fl K → Fl K → Res (Fl K)) (regular : Bool) (nY nX : Nat)
    (stations : List (OiStation K)) (g : OiPlace K) (idx : List Nat) : Res (List (Fl K × Nat)) := do
  let r ← mapM (fun i : Nat => do
    let s ← vget stations (i : Int)
    let rho ← oiRhoGrid o dist g s
    ok (if oiInside regular nY nX s && rho.gt o.minRho then some (rho, i) else none)) idx
  ok (r.filterMap id)

/-- The search for the greatest `rho` (src/client/Calibrator/Oi.cpp:480-487): its value and its position, if there is one above 0. -/
def oiBest (l : List (Fl K × Nat)) : Fl K × Option Nat :=
  (l.foldl (fun (s : Nat × (Fl K × Option Nat)) p => (s.1 + 1, if p.1.gt s.2.1 then (p.1, some s.1) else s.2)) (0, (0, none))).2

/-- Cross-validation: the station with the greatest `rho` is left out (src/client/Calibrator/Oi.cpp:479-499). -/
def oiDropBest (cv : Bool) (l : List (Fl K × Nat)) : List (Fl K × Nat) :=
  if cv then match (oiBest l).2 with
    | some k => l.eraseIdx k
    | none => l
  else l

/-- `lLocIndices` and `lRhos` (src/client/Calibrator/Oi.cpp:500-520). The number of stations is unsigned, so that a negative `maxLocations` is
a large number in the comparison. -/
def oiLimitLocations (A : Arma K) (maxLocations : Int) (l : List (Fl K × Nat)) : List (Fl K × Nat) :=
  if 0 ≤ maxLocations ∧ maxLocations < (l.length : Int) then (A.sortFirst l).reverse.take maxLocations.toNat else l

/-- The stations used at a grid point, with their `rho` (src/client/Calibrator/Oi.cpp:453-520). -/
def oiLocal [HasExp K] (A : Arma K) (o : OiOptions K) (dist : Fl K → Fl K → Fl K → Fl K → Res (Fl K)) (regular : Bool) (nY nX : Nat)
    (stations : List (OiStation K)) (g : OiPlace K) (idx : List Nat) : Res (List (Fl K × Nat)) := do
  let l ← oiCandidates o dist regular nY nX stations g idx
  ok (oiLimitLocations A o.maxLocations (oiDropBest o.crossValidate l))

/-! ### Variance inflation -/

/-- One station in `calcDelta` (src/client/Calibrator/Oi.cpp:1101-1108): the sum of squares and the number of valid values. -/
def oiSquares (row : List (Fl K)) : Fl K × Nat :=
  row.foldl (fun s v => if isValid v then (s.1 + v * v, s.2 + 1) else s) (0, 0)

/-- `trace` and `numValidS` (src/client/Calibrator/Oi.cpp:1095-1114). All rows have the length of the first one. -/
def oiTrace (gY : List (List (Fl K))) : Fl K × Nat :=
  gY.foldl (fun t row =>
    let s := oiSquares row
    if 1 < s.2 then (t.1 + s.1 / Fl.ofInt ((s.2 : Int) - 1), t.2 + 1) else t) (0, 0)

/-- `CalibratorOi::calcDelta` (src/client/Calibrator/Oi.cpp:1093-1121). Without stations `iY[0]` does not exist. -/
def oiCalcDelta (o : OiOptions K) (old : Fl K) (gY : List (List (Fl K))) : Res (Fl K) :=
  if gY.isEmpty then .ub
  else
    let t := oiTrace gY
    let evidence := o.sigma * o.sigma / o.epsilon / o.epsilon / (1 / Fl.ofNat t.2 * t.1)
    let weightOld := o.c - 1
    ok ((old * o.newDeltaVar + evidence * weightOld) / (weightOld + o.newDeltaVar))

end Gridpp.Client
