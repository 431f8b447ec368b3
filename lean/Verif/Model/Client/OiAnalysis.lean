import Verif.Model.Client.Oi
import Verif.Model.Client.Neighbourhood

/-!
# src/client/Calibrator/Oi.cpp: the analysis

A field is a function of y, x and member: all fields have the sizes of the file, and the loops stay within them. Matrices are lists of
rows; `Arma`, `ArmaE` and the operations on matrices are those of the models of src/api/oi.cpp and src/api/oi_ensi.cpp, whose text is
almost the same. Debug output is left out.
-/

set_option linter.unusedSectionVars false

namespace Gridpp.Client
open Fl Res

variable {K : Type} [Field K] [LinearOrder K] [IsStrictOrderedRing K]

/-- The background (src/client/Calibrator/Oi.cpp:328-337). -/
def oiBackground [FloorRing K] [HasExp K] (o : OiOptions K) (f : Nat → Nat → Nat → Fl K) (y x e : Nat) : Fl K :=
  if isValid (f y x e) then oiTransform o (f y x e) else f y x e

/-- The bias at the start (src/client/Calibrator/Oi.cpp:344-351). -/
def oiBias (o : OiOptions K) (b : Fl K) : Fl K := if isValid b then b * o.mu else 0

/-- The inflation factor at the start (src/client/Calibrator/Oi.cpp:358-363). -/
def oiDelta (d : Fl K) : Fl K := if !isValid d then 1 else d

/-- `elevCorr` (src/client/Calibrator/Oi.cpp:384-391). -/
def oiElevCorr (o : OiOptions K) (elev gridElev : Fl K) : Res (Fl K) :=
  if isValid o.elevGradient && o.elevGradient.fne 0 then do
    assert (isValid gridElev)
    assert (isValid elev)
    ok (o.elevGradient * (elev - gridElev))
  else ok 0

/-- The forecast at a station (src/client/Calibrator/Oi.cpp:383-416): the row of `gY` and the element of `gYhat`. `values` are the members at
the nearest grid point, `bias` the bias there. -/
def oiForecast (o : OiOptions K) (elev gridElev : Fl K) (bias : Option (Fl K)) (values : List (Fl K)) : Res (List (Fl K) × Fl K) := do
  let c ← oiElevCorr o elev gridElev
  let vs := (values.filter isValid).map fun v => v + c
  let row := values.map fun v => if isValid v then v + c else 0
  let mean := if 0 < vs.length then (sumTo vs.length fun k => vs.getD k nan) / Fl.ofNat vs.length else MV
  ok (row.map fun v => if isValid v && isValid mean then v - mean else v,
    match bias with
    | none => mean
    | some b => if isValid mean then mean - b else mean)

/-- `validEns` (src/client/Calibrator/Oi.cpp:420-435). -/
def oiValidEns (nY nX nE : Nat) (f : Nat → Nat → Nat → Fl K) : List Nat :=
  (List.range nE).filter fun e => (List.range nX).all fun x => (List.range nY).all fun y => isValid (f y x e)

/-- What is used of a selected station: `lRhos(i)`, the station, the row `lY(i, .)` and `lYhat(i)`. -/
structure OiRow (K : Type) where
  rho : Fl K
  station : OiStation K
  y : List (Fl K)
  yhat : Fl K

/-- The selected stations (src/client/Calibrator/Oi.cpp:538-561). -/
def oiRows (stations : List (OiStation K)) (gY : List (List (Fl K) × Fl K)) (members : List Nat) (sel : List (Fl K × Nat)) :
    Res (List (OiRow K)) :=
  mapM (fun p : Fl K × Nat => do
    let s ← vget stations (p.2 : Int)
    let g ← vget gY (p.2 : Int)
    let y ← mapM (fun ei : Nat => vget g.1 (ei : Int)) members
    ok ⟨p.1, s, y, g.2⟩) sel

/-! ### Single-member mode -/

/-- `lG`, `lP` and the diagonal of `lR` (src/client/Calibrator/Oi.cpp:568-598). -/
def oiMatrices [HasExp K] (o : OiOptions K) (dist : Fl K → Fl K → Fl K → Fl K → Res (Fl K)) (g : OiPlace K) (rows : List (OiRow K)) :
    Res (List (Fl K) × List (List (Fl K)) × List (Fl K)) := do
  let lG ← mapM (fun r : OiRow K => oiRhoGrid o dist g r.station) rows
  let lP ← mapM (fun r : OiRow K => mapM (fun r' : OiRow K => oiRhoStations o dist g.laf r.station r'.station) rows) rows
  ok (lG, lP, rows.map fun r => r.station.ci)

/-- `lP + mEpsilon * mEpsilon * lR`, or with the factor for a bias (src/client/Calibrator/Oi.cpp:602-609). -/
def oiSystem (o : OiOptions K) (useBias : Bool) (lP : List (List (Fl K))) (lR : List (Fl K)) : List (List (Fl K)) :=
  let f := if useBias then 1 / (1 + o.gamma) * o.epsilon * o.epsilon else o.epsilon * o.epsilon
  lP.mapIdx fun i row => row.mapIdx fun j p => p + f * (if i = j then lR.getD i nan else 0)

/-- `lObs - currFcst` for member number `e` (src/client/Calibrator/Oi.cpp:615-616). -/
def oiInnovation (rows : List (OiRow K)) (e : Nat) : List (Fl K) := rows.map fun r => r.station.obs - (r.y.getD e nan + r.yhat)

/-- `sigmaTransformed(y, x, ei)` (src/client/Calibrator/Oi.cpp:625-638). -/
def oiSigma (o : OiOptions K) (lG : List (Fl K)) (lP N : List (List (Fl K))) (lR w d : List (Fl K)) : Fl K :=
  let n := d.length
  let inc := (List.range n).map fun i => dot (lP.getD i []) ((List.range n).map fun j => dot (N.getD j []) d)
  let total := sumTo n fun s => d.getD s nan * (d.getD s nan - inc.getD s nan)
  let totalDiagR := sumTo n fun s => o.epsilon * o.epsilon * lR.getD s nan
  let lGSRG := sumTo n fun s => w.getD s nan * lG.getD s nan
  let sigmaB := total / Fl.ofNat n / (totalDiagR / Fl.ofNat n)
  let v := sigmaB * (1 - lGSRG)
  if (fin (1 / 1000) : Fl K).lt v then v else fin (1 / 1000)

/-- The least value in transformed space (src/client/Calibrator/Oi.cpp:621-623). -/
def oiFloor (o : OiOptions K) (v : Fl K) : Fl K := if o.boxcox && v.lt (fin (-1) / o.lambda) then fin (-1) / o.lambda else v

/-- The result of one grid point: the members of `output`, of `sigmaTransformed`, and the new bias. -/
structure OiResult (K : Type) where
  out : List (Fl K)
  sigma : List (Fl K)
  bias : Fl K

/-- The new values of the valid members in single-member mode (src/client/Calibrator/Oi.cpp:612-668), with `sigmaTransformed`, from the
background `b` of all members. All values at `validEns` are valid. -/
def oiSingleMembers [FloorRing K] [HasExp K] (o : OiOptions K) (members : List Nat) (b : List (Fl K)) (rows : List (OiRow K))
    (lG : List (Fl K)) (lP N : List (List (Fl K))) (lR : List (Fl K)) : Res (List (Fl K × Fl K)) :=
  mapM (fun k : Nat => do
    let ei ← vget members (k : Int)
    let v ← vget b (ei : Int)
    let d := oiInnovation rows k
    let w := vecMat lG N
    let out := oiFloor o (v + dot w d)
    ok (out, if o.boxcox && out.ge (oiTransform o o.boxCoxThreshold) then oiSigma o lG lP N lR w d else 0)) (List.range members.length)

/-- Values written to some members; the others keep what they had. -/
def oiScatter (members : List Nat) (vals : List (Fl K)) (start : List (Fl K)) : Res (List (Fl K)) := writeMembers start members vals

/-- Single-member mode at one grid point (src/client/Calibrator/Oi.cpp:567-675). `output` starts missing, `sigmaTransformed` and `newbias`
start with 0 (321, 352, 440). `biasTotal` is 0 (672). -/
def oiSingle [FloorRing K] [HasExp K] (A : Arma K) (o : OiOptions K) (dist : Fl K → Fl K → Fl K → Fl K → Res (Fl K)) (g : OiPlace K)
    (members : List Nat) (b : List (Fl K)) (bias : Option (Fl K)) (rows : List (OiRow K)) : Res (OiResult K) := do
  let m ← oiMatrices o dist g rows
  let N ← A.inv (oiSystem o bias.isSome m.2.1 m.2.2)
  let r ← oiSingleMembers o members b rows m.1 m.2.1 N m.2.2
  let out ← oiScatter members (r.map Prod.fst) (List.replicate b.length MV)
  let sigma ← oiScatter members (r.map Prod.snd) (List.replicate b.length 0)
  ok ⟨out, sigma, match bias with
    | none => 0
    | some c => c - o.gamma / (1 + o.gamma) * 0⟩

/-! ### Ensemble mode -/

/-- `Rinv` with two parameters (src/client/Calibrator/Oi.cpp:682-691). -/
def oiRinv (o : OiOptions K) (rows : List (OiRow K)) : List (Fl K) := rows.map fun r => r.rho / (o.sigma * o.sigma * r.station.ci)

/-- `lRadarIndices` (src/client/Calibrator/Oi.cpp:699-709). -/
def oiRadarIndices (rows : List (OiRow K)) : List Nat :=
  (List.range rows.length).filter fun i => match rows[i]? with
    | some r => r.station.radar.gt 0
    | none => false

/-- `radarR` (src/client/Calibrator/Oi.cpp:713-731). -/
def oiRadarR [HasExp K] (o : OiOptions K) (dist : Fl K → Fl K → Fl K → Fl K → Res (Fl K)) (rows : List (OiRow K)) :
    Res (List (List (Fl K))) :=
  let idx := oiRadarIndices rows
  grid2 idx.length idx.length fun i j => if i = j then ok 1 else do
    let p ← vget idx i
    let q ← vget idx j
    let a ← vget rows (p : Int)
    let b ← vget rows (q : Int)
    let d ← dist a.station.lat a.station.lon b.station.lat b.station.lon
    let h := d / o.hLengthC
    ok ((1 + h) * Fl.exp (-h))

/-- `Rinv` with three parameters from the inverse of `radarR` (src/client/Calibrator/Oi.cpp:753-764). -/
def oiRinvRadar [HasSqrt K] (o : OiOptions K) (rows : List (OiRow K)) (N : List (List (Fl K))) : List (List (Fl K)) :=
  let idx := oiRadarIndices rows
  let rhos := rows.map OiRow.rho
  tab rows.length rows.length fun i j =>
    match idx.idxOf? i, idx.idxOf? j with
    | some p, some q => Fl.sqrt (rhos.getD i nan * rhos.getD j nan) / (o.sigmaC * o.sigmaC) * ent N p q
    | _, _ => if i = j then (oiRinv o rows).getD i nan else 0

/-- `Rinv` (src/client/Calibrator/Oi.cpp:681-768), or `none` if the background is kept. -/
def oiRinvAll [HasSqrt K] [HasExp K] (A : ArmaE K) (o : OiOptions K) (dist : Fl K → Fl K → Fl K → Fl K → Res (Fl K)) (numParameters : Nat)
    (rows : List (OiRow K)) : Res (Option (List (List (Fl K)))) :=
  if numParameters = 2 then ok (some (tab rows.length rows.length fun i j => if i = j then (oiRinv o rows).getD i nan else 0))
  else if numParameters = 3 then do
    let R ← oiRadarR o dist rows
    if (A.rcond R).le 0 then ok none
    else do
      let N ← A.inv R
      ok (some (oiRinvRadar o rows N))
  else .abort

/-- `C` (src/client/Calibrator/Oi.cpp:772-773). -/
def oiC (n : Nat) (rows : List (OiRow K)) (Rinv : List (List (Fl K))) : List (List (Fl K)) :=
  tab n rows.length fun e i => sumTo rows.length fun l => ent (rows.map OiRow.y) l e * ent Rinv l i

/-- `diag` (src/client/Calibrator/Oi.cpp:776-783). -/
def oiDiag (o : OiOptions K) (useBias : Bool) (delta : Fl K) (n : Nat) : Fl K :=
  if useBias then 1 / delta / (1 + o.gamma) * Fl.ofInt ((n : Int) - 1) else 1 / delta * Fl.ofInt ((n : Int) - 1)

/-- `Pinv` (src/client/Calibrator/Oi.cpp:785). -/
def oiPinv (n : Nat) (rows : List (OiRow K)) (C : List (List (Fl K))) (diag : Fl K) : List (List (Fl K)) :=
  tab n n fun e f => (sumTo rows.length fun i => ent C e i * ent (rows.map OiRow.y) i f) + diag * (if e = f then 1 else 0)

/-- `w` (src/client/Calibrator/Oi.cpp:839-847). -/
def oiWeights (o : OiOptions K) (n : Nat) (rows : List (OiRow K)) (P C : List (List (Fl K))) : List (Fl K) :=
  (List.range n).map fun e => sumTo rows.length fun i =>
    ent (mmul n n rows.length P C) e i * (if o.diagnose then 1 else (rows.map fun r => r.station.obs - r.yhat).getD i nan)

/-- `W` before `w` is added, and `w`, or `none` if the background is kept (src/client/Calibrator/Oi.cpp:785-847). -/
def oiTransformMatrix [HasSqrt K] (A : ArmaE K) (o : OiOptions K) (n : Nat) (rows : List (OiRow K)) (Rinv : List (List (Fl K))) (diag : Fl K) :
    Res (Option (List (List (Fl K)) × List (Fl K))) := do
  let C := oiC n rows Rinv
  let Pinv := oiPinv n rows C diag
  if (A.rcond Pinv).le 0 then ok none
  else do
    let P ← A.inv Pinv
    match A.eigSym (tab n n fun e f => Fl.ofInt ((n : Int) - 1) * ent P e f) with
    | none => ok none
    | some (lam, V) => ok (if V.length = 0 then none else some (ensiW n lam V, oiWeights o n rows P C))

/-- `lY[e]` (src/client/Calibrator/Oi.cpp:942-943): one element of the matrix, which is stored by columns. -/
def oiElement (rows : List (OiRow K)) (e : Nat) : Fl K := ent (rows.map OiRow.y) (e % rows.length) (e / rows.length)

/-- The anti-extrapolation filter (src/client/Calibrator/Oi.cpp:939-971): `x` is `X(e)` and `inc` `currIncrement`. -/
def oiLimit (rows : List (OiRow K)) (e : Nat) (x inc : Fl K) : Fl K :=
  let d := rows.map fun r => r.station.obs - (oiElement rows e + r.yhat)
  let maxInc := armaMax d
  let minInc := armaMin d
  let member := inc - x
  if maxInc.gt 0 && member.gt maxInc then maxInc + x
  else if maxInc.lt 0 && member.gt 0 then 0 + x
  else if minInc.lt 0 && member.lt minInc then minInc + x
  else if minInc.gt 0 && member.lt 0 then 0 + x
  else inc

/-- The new value of member number `e` of the valid ones (src/client/Calibrator/Oi.cpp:918-973): `X` are the perturbations. -/
def oiMember (o : OiOptions K) (rows : List (OiRow K)) (mean : Fl K) (X : List (Fl K)) (W : Nat → Nat → Fl K) (e : Nat) : Fl K :=
  let inc := sumTo X.length fun k => X.getD k nan * W k e
  if o.saveDiff then inc else mean + (if o.extrapolate then inc else oiLimit rows e (X.getD e nan) inc)

/-- Ensemble mode at one grid point (src/client/Calibrator/Oi.cpp:680-1001). If the background is kept, the new bias stays 0. -/
def oiEnsemble [HasSqrt K] [HasExp K] (A : ArmaE K) (o : OiOptions K) (dist : Fl K → Fl K → Fl K → Fl K → Res (Fl K)) (numParameters : Nat)
    (members : List Nat) (b : List (Fl K)) (bias : Option (Fl K)) (delta : Fl K) (rows : List (OiRow K)) : Res (OiResult K) := do
  let n := members.length
  let keep : OiResult K := ⟨b, List.replicate b.length 0, 0⟩
  let R ← oiRinvAll A o dist numParameters rows
  match R with
  | none => ok keep
  | some Rinv => do
    let t ← oiTransformMatrix A o n rows Rinv (oiDiag o bias.isSome delta n)
    match t with
    | none => ok keep
    | some (W, w) => do
      let vals ← mapM (fun ei : Nat => vget b (ei : Int)) members
      let mean := (sumTo vals.length fun k => vals.getD k nan) / Fl.ofNat vals.length
      let X := vals.map fun v => v - mean
      let out ← oiScatter members ((List.range n).map (oiMember o rows mean X fun k e => ent W k e + w.getD k nan))
        (List.replicate b.length MV)
      let biasTotal := sumTo n fun e => vals.getD e nan * w.getD e nan
      ok ⟨out, List.replicate b.length 0, match bias with
        | none => 0
        | some c => c - o.gamma / (1 + o.gamma) * biasTotal⟩

/-! ### A grid point and a time -/

/-- One grid point (src/client/Calibrator/Oi.cpp:445-1001) with the selected stations. -/
def oiCellC [FloorRing K] [HasSqrt K] [HasExp K] (A : ArmaE K) (o : OiOptions K) (dist : Fl K → Fl K → Fl K → Fl K → Res (Fl K))
    (numParameters : Nat) (stations : List (OiStation K)) (gY : List (List (Fl K) × Fl K)) (members : List Nat) (g : OiPlace K)
    (b : List (Fl K)) (bias : Option (Fl K)) (delta : Fl K) (sel : List (Fl K × Nat)) : Res (OiResult K) :=
  if sel.length = 0 then ok ⟨if o.saveDiff then List.replicate b.length MV else b, List.replicate b.length 0, 0⟩
  else do
    let rows ← oiRows stations gY members sel
    if !o.useEns || decide ((members.length : Int) < o.minEns) then oiSingle A.toArma o dist g members b bias rows
    else oiEnsemble A o dist numParameters members b bias delta rows

/-- The back-transform of one value in single-member mode (src/client/Calibrator/Oi.cpp:1032-1047), with the smoothed variance. -/
def oiBack [FloorRing K] [HasExp K] (o : OiOptions K) (value sigma : Fl K) : Fl K :=
  if isValid value then
    if sigma.feq 0 || value.lt (oiTransform o o.boxCoxThreshold) then oiInvTransform o value
    else
      let f := Fl.pow (o.lambda * value + 1) (1 / o.lambda)
      let f2 := Fl.pow ((1 - o.lambda) * (o.lambda * value + 1)) (1 / o.lambda - fin 2)
      f + fin (1 / 2) * sigma * f2
  else value

/-- A field as an object of class `Field`. -/
def oiField (nY nX nE : Nat) (f : Nat → Nat → Nat → Fl K) : FieldC K :=
  ⟨(List.range nY).flatMap fun y => (List.range nX).flatMap fun x => (List.range nE).map fun e => f y x e, nY, nX, nE⟩

/-- A smoother (src/client/Calibrator/Oi.cpp:131-134, 1022, 1052): the mean in a square, see `nbField`. -/
def oiSmooth [FloorRing K] [HasSqrt K] (radius : Int) (f : FieldC K) : Res (FieldC K) := do
  let s ← nbNew radius false false .mean none
  nbField s none f

/-- The end of single-member mode with a transform (src/client/Calibrator/Oi.cpp:1009-1053). -/
def oiFinish [FloorRing K] [HasSqrt K] [HasExp K] (o : OiOptions K) (nY nX nE : Nat) (out sigma : Nat → Nat → Nat → Fl K) :
    Res (FieldC K) := do
  let thr := oiTransform o o.boxCoxThreshold
  let s ← foldM (fun (s : FieldC K) radius => do
    let s ← FieldC.forAll nY nX nE (fun s y x e => if (out y x e).lt thr then s.set y x e 0 else ok s) s
    oiSmooth radius s) (oiField nY nX nE sigma) [25, 5, 3]
  let r ← FieldC.forAll nY nX nE (fun r y x e => do
    let v ← s.get y x e
    r.set y x e (oiBack o (out y x e) v)) (oiField nY nX nE out)
  oiSmooth 3 r

/-- What is known before the loop over time (src/client/Calibrator/Oi.cpp:120-316): stations and, for each grid point, their numbers. -/
structure OiSetup (K : Type) where
  regular : Bool
  stations : List (OiStation K)
  assigned : Nat → Nat → List Nat

/-- The results of the grid points at one time (src/client/Calibrator/Oi.cpp:379-1003); `f` is the transformed background, `bias` and `delta` are
the fields after 351 and 363. The iterations of the parallel loop write separate elements; an exception ends the program. -/
def oiCells [FloorRing K] [HasSqrt K] [HasExp K] (A : ArmaE K) (o : OiOptions K) (dist : Fl K → Fl K → Fl K → Fl K → Res (Fl K))
    (numParameters nY nX nE : Nat) (grid : Nat → Nat → OiPlace K) (S : OiSetup K) (f : Nat → Nat → Nat → Fl K)
    (bias delta : Option (Nat → Nat → Fl K)) : Res (List (List (OiResult K)) × List (List (Fl K) × Fl K)) := do
  let gY ← mapM (fun s : OiStation K => oiForecast o s.elev (grid s.y s.x).elev (bias.map fun b => b s.y s.x)
    ((List.range nE).map (f s.y s.x))) S.stations
  let members := oiValidEns nY nX nE f
  let r ← Res.omp (mapM (fun y : Nat => mapM (fun x : Nat => do
    let sel ← oiLocal A.toArma o dist S.regular nY nX S.stations (grid y x) (S.assigned y x)
    oiCellC A o dist numParameters S.stations gY members (grid y x) ((List.range nE).map (f y x)) (bias.map fun b => b y x)
      ((delta.map fun d => d y x).getD o.delta) sel) (List.range nX)) (List.range nY))
  ok (r, gY)

/-- One time (src/client/Calibrator/Oi.cpp:319-1085): the new field, the new bias and the new inflation factor. `bias` and `delta` are the
fields of the file, if the options name them. In ensemble mode the values are transformed back one by one (1055-1066). The number of
stations, the option `numVariable`, is left out. -/
def oiTime [FloorRing K] [HasSqrt K] [HasExp K] (A : ArmaE K) (o : OiOptions K) (dist : Fl K → Fl K → Fl K → Fl K → Res (Fl K))
    (numParameters nY nX nE : Nat) (grid : Nat → Nat → OiPlace K) (S : OiSetup K) (f : Nat → Nat → Nat → Fl K)
    (bias delta : Option (Nat → Nat → Fl K)) : Res (FieldC K × Option (Nat → Nat → Fl K) × Option (Fl K)) := do
  let b := oiBackground o f
  let bias := bias.map fun c y x => oiBias o (c y x)
  let delta := delta.map fun d y x => oiDelta (d y x)
  let r ← oiCells A o dist numParameters nY nX nE grid S b bias delta
  let cell := fun y x => (((r.1.getD y [])[x]?).getD ⟨[], [], 0⟩ : OiResult K)
  let out := fun y x e => (cell y x).out.getD e nan
  let single := !o.useEns || decide (((oiValidEns nY nX nE b).length : Int) < o.minEns)
  let final ← if single then
      (if o.boxcox then oiFinish o nY nX nE out (fun y x e => (cell y x).sigma.getD e nan) else ok (oiField nY nX nE out))
    else ok (oiField nY nX nE fun y x e => if isValid (out y x e) then oiInvTransform o (out y x e) else out y x e)
  let d ← match delta with
    | none => ok none
    | some d => do
      let v ← oiCalcDelta o (d 0 0) (r.2.map Prod.fst)
      ok (some v)
  ok (final, bias.map fun _ y x => (cell y x).bias, d)

/-- The stations (src/client/Calibrator/Oi.cpp:140-316), or `none` if nothing is done. `locs` are locations with their parameters; the number of
parameters is at most 3. -/
def oiSetup [FloorRing K] [HasSqrt K] [HasExp K] (o : OiOptions K) (dist exact : Fl K → Fl K → Fl K → Fl K → Res (Fl K))
    (near : Fl K → Fl K → Res (Nat × Nat)) (numParameters nY nX : Nat) (grid : Nat → Nat → OiPlace K)
    (locs : List (Fl K × Fl K × Fl K × List (Fl K))) : Res (Option (OiSetup K)) :=
  if !((List.range nY).any fun y => (List.range nX).any fun x =>
      isValid (grid y x).lat && isValid (grid y x).lon && isValid (grid y x).elev) then ok none
  else if 3 < numParameters then error
  else do
    let size ← oiGridSize exact nY nX grid
    let r ← if isValid size then (do let r ← oiGridRadius o size locs.length; ok (some r)) else ok none
    let st ← mapM (fun l : Fl K × Fl K × Fl K × List (Fl K) => oiStation o near grid l.1 l.2.1 l.2.2.1 l.2.2.2) locs
    let a ← mapM (fun y : Nat => mapM (fun x : Nat => oiAssigned o dist r nY nX grid st y x) (List.range nX)) (List.range nY)
    ok (some ⟨r.isSome, st, fun y x => ((a.getD y [])[x]?).getD []⟩)

/-- `CalibratorOi::calibrateCore` (src/client/Calibrator/Oi.cpp:124-1091). The bias and the inflation factor are fields of the same time. -/
def oiCalibrate [FloorRing K] [HasSqrt K] [HasExp K] (A : ArmaE K) (o : OiOptions K) (dist exact : Fl K → Fl K → Fl K → Fl K → Res (Fl K))
    (near : Fl K → Fl K → Res (Nat × Nat)) (numParameters nY nX nE : Nat) (grid : Nat → Nat → OiPlace K)
    (locs : List (Fl K × Fl K × Fl K × List (Fl K)))
    (times : List ((Nat → Nat → Nat → Fl K) × Option (Nat → Nat → Fl K) × Option (Nat → Nat → Fl K))) :
    Res (Option (List (FieldC K × Option (Nat → Nat → Fl K) × Option (Fl K)))) := do
  let s ← oiSetup o dist exact near numParameters nY nX grid locs
  match s with
  | none => ok none
  | some S => do
    let r ← mapM (fun t : (Nat → Nat → Nat → Fl K) × Option (Nat → Nat → Fl K) × Option (Nat → Nat → Fl K) =>
      oiTime A o dist numParameters nY nX nE grid S t.1 t.2.1 t.2.2) times
    ok (some r)

end Gridpp.Client
