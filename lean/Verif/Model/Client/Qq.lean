import Verif.Model.Client.Calibrators
import Verif.Model.Client.Interp
import Verif.Model.Curve

/-!
# src/client/Calibrator/Qq.cpp

The parameter file is a function that gives the parameters of a time and grid point; reading it is not modelled. When
the file does not depend on the location the code separates the parameters once per time step instead of once per
point, with the same result.
-/

set_option linter.unusedSectionVars false

namespace Gridpp.Client
open Fl Res

variable {K : Type} [Field K] [LinearOrder K]

/-- The sorting of the points when there are extra ones (src/client/Calibrator/Qq.cpp:261-268 and 213-220). -/
def withExtra (extraObs extraFcst obs fcst : List (Fl K)) : Res (List (Fl K) × List (Fl K)) :=
  if 0 < extraObs.length then do
    let moreFcst ← mapM (fun i : Nat => vget extraFcst i) (List.range extraObs.length)
    let o ← stdSort (obs ++ extraObs)
    let f ← stdSort (fcst ++ moreFcst)
    ok (o, f)
  else ok (obs, fcst)

/-- `CalibratorQq::separate` (src/client/Calibrator/Qq.cpp:251-269). -/
def separate (extraObs extraFcst params : List (Fl K)) : Res (List (Fl K) × List (Fl K)) := do
  let obs ← mapM (fun i : Nat => vget params (2 * i)) (List.range (params.length / 2))
  let fcst ← mapM (fun i : Nat => vget params (2 * i + 1)) (List.range (params.length / 2))
  withExtra extraObs extraFcst obs fcst

/-- `slope` (src/client/Calibrator/Qq.cpp:114-138). The enumeration is that of the library; the client has no policy
`unchanged` (for it the slope would stay 1). -/
def qqSlope (policy : Extrapolation) (obs fcst : List (Fl K)) (isBelow : Bool) : Res (Fl K) := do
  let smallestObs ← vget obs 0
  let smallestFcst ← vget fcst 0
  let N : Int := obs.length
  let largestObs ← vget obs (N - 1)
  let largestFcst ← vget fcst ((fcst.length : Int) - 1)
  if policy = .oneToOne ∨ N ≤ 1 then ok 1
  else if policy = .meanSlope then ok ((largestObs - smallestObs) / (largestFcst - smallestFcst))
  else if policy = .nearestSlope then
    if isBelow then do
      let o1 ← vget obs 1
      let o0 ← vget obs 0
      let f1 ← vget fcst 1
      let f0 ← vget fcst 0
      ok ((o1 - o0) / (f1 - f0))
    else do
      let o1 ← vget obs (N - 1)
      let o0 ← vget obs (N - 2)
      let f1 ← vget fcst (N - 1)
      let f0 ← vget fcst (N - 2)
      ok ((o1 - o0) / (f1 - f0))
  else if policy = .zero then ok 0
  else ok 1

/-- `value` for a valid `raw` (src/client/Calibrator/Qq.cpp:93-140). -/
def qqValue (policy : Extrapolation) (obs fcst : List (Fl K)) (raw : Fl K) : Res (Fl K) := do
  let smallestObs ← vget obs 0
  let smallestFcst ← vget fcst 0
  let largestObs ← vget obs ((obs.length : Int) - 1)
  let largestFcst ← vget fcst ((fcst.length : Int) - 1)
  if raw.gt smallestFcst && raw.lt largestFcst then interpolate raw fcst obs
  else do
    let isBelow := raw.le smallestFcst
    let nearestObs := if isBelow then smallestObs else largestObs
    let nearestFcst := if isBelow then smallestFcst else largestFcst
    let slope ← qqSlope policy obs fcst isBelow
    ok (nearestObs + slope * (raw - nearestFcst))

/-- The new value of one member (src/client/Calibrator/Qq.cpp:90-151). -/
def qqMember (policy : Extrapolation) (obs fcst : List (Fl K)) (y x : Nat) (f : FieldC K) (e : Nat) : Res (FieldC K) := do
  let raw ← f.get y x e
  if isValid raw then do
    let value ← qqValue policy obs fcst raw
    f.set y x e value
  else f.set y x e MV

/-- One grid point (src/client/Calibrator/Qq.cpp:67-153). The printing at a chosen point is left out. -/
def qqCell (E : Nat) (policy : Extrapolation) (extraObs extraFcst params : List (Fl K)) (f : FieldC K) (y x : Nat) :
    Res (FieldC K) := do
  let curve ← separate extraObs extraFcst params
  if curve.1.length < 1 then error
  else if curve.1.all isValid && curve.2.all isValid then
    foldM (qqMember policy curve.1 curve.2 y x) f (List.range E)
  else ok f

/-- `CalibratorQq::calibrateCore` (src/client/Calibrator/Qq.cpp:39-158). -/
def qq (Y X E : Nat) (policy : Extrapolation) (extraObs extraFcst : List (Fl K)) (numParameters : Nat)
    (params : Nat → Nat → Nat → List (Fl K)) (fields : List (FieldC K)) : Res (List (FieldC K)) :=
  if numParameters % 2 ≠ 0 then error
  else eachTime (fun t => FieldC.forCells Y X fun f y x => qqCell E policy extraObs extraFcst (params t y x) f y x) fields

/-- `Util::calculateStat(ens, Util::StatTypeMean)` (src/client/Util.cpp:341-356). -/
def ensMean (array : List (Fl K)) : Fl K :=
  let t := sumCount array
  if 0 < t.2 then t.1 / Fl.ofNat t.2 else MV

/-- The usable pairs (src/client/Calibrator/Qq.cpp:167-175). -/
def trainPairs (data : List (Fl K × List (Fl K))) : List (Fl K × Fl K) :=
  (data.map fun d => (d.1, ensMean d.2)).filter fun p => isValid p.1 && isValid p.2

/-- The points chosen from the sorted values (src/client/Calibrator/Qq.cpp:187-210). -/
def trainPoints (quantiles obs fcst : List (Fl K)) : Res (List (Fl K) × List (Fl K)) :=
  if obs.length = 0 then ok ([], [])
  else if 0 < quantiles.length then do
    let x : List (Fl K) := (List.range obs.length).map fun i => Fl.ofNat i / Fl.ofInt ((obs.length : Int) - 1)
    let o ← mapM (fun q => interpolate q x obs) quantiles
    let f ← mapM (fun q => interpolate q x fcst) quantiles
    ok (o, f)
  else ok (obs, fcst)

/-- `CalibratorQq::train` (src/client/Calibrator/Qq.cpp:160-233). The two interpolations of the code alternate; an
interpolation that stops the program stops it in either order. -/
def train (quantiles extraObs extraFcst : List (Fl K)) (data : List (Fl K × List (Fl K))) : Res (List (Fl K)) := do
  let pairs := trainPairs data
  let obs ← stdSort (pairs.map Prod.fst)
  let fcst ← stdSort (pairs.map Prod.snd)
  let points ← trainPoints quantiles obs fcst
  let curve ← withExtra extraObs extraFcst points.1 points.2
  let values ← mapM (fun i : Nat => do
    let o ← vget curve.1 i
    let f ← vget curve.2 i
    ok [o, f]) (List.range curve.1.length)
  ok values.flatten

end Gridpp.Client
