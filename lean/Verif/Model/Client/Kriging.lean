import Verif.Base.Pow
import Verif.Model.Client.Calibrators

/-!
# src/client/Calibrator/Kriging.cpp

The distance between two places (`Util::getDistance`) and `Util::inverse` (LU factorization of Boost uBLAS) are arguments.
-/

set_option linter.unusedSectionVars false

namespace Gridpp.Client
open Fl Res

variable {K : Type} [Field K] [LinearOrder K]

/-- `Util::OperatorType` (src/client/Util.h) as far as kriging knows it (src/client/Calibrator/Kriging.cpp:51-66). -/
inductive KrigOp where
  | add | subtract | multiply | divide
  deriving DecidableEq

/-- The options used by `calcCovar` (src/client/Calibrator/Kriging.cpp:8-20); `barnes` is `mKrigingType == TypeBarnes`. -/
structure KrigOptions (K : Type) where
  efold : Fl K
  radius : Fl K
  maxElev : Fl K
  barnes : Bool

/-- The checks of the constructor (src/client/Calibrator/Kriging.cpp:25-33). -/
def krigCheck (o : KrigOptions K) : Res Unit :=
  if o.efold.lt 0 then error
  else if isValid o.maxElev && o.maxElev.lt 0 then error
  else if o.radius.lt 0 then error
  else ok ()

/-- `Location` (src/client/Location.h:6-31), with any coordinates. -/
structure KPoint (K : Type) where
  lat : Fl K
  lon : Fl K
  elev : Fl K
  deriving DecidableEq

/-- `isValidLoc1`, `isValidLoc2` (src/client/Calibrator/Kriging.cpp:393-394). -/
def KPoint.valid (p : KPoint K) : Bool := isValid p.lat && isValid p.lon && isValid p.elev

/-- `(a*a - d*d) / (a*a + d*d)` (src/client/Calibrator/Kriging.cpp:405-406 and 409-410). -/
def cressmanC (a d : Fl K) : Fl K := (a * a - d * d) / (a * a + d * d)

/-- `exp(-d*d/(2*a*a))` (src/client/Calibrator/Kriging.cpp:415 and 418). -/
def barnesC [HasExp K] (a d : Fl K) : Fl K := Fl.exp (-d * d / (fin 2 * a * a))

/-- `CalibratorKriging::calcCovar` (src/client/Calibrator/Kriging.cpp:391-425). -/
def calcCovar [HasExp K] (o : KrigOptions K) (dist : Fl K → Fl K → Fl K → Fl K → Res (Fl K)) (p q : KPoint K) : Res (Fl K) :=
  if p.valid && q.valid then do
    let h ← dist p.lat p.lon q.lat q.lon
    let v := (p.elev - q.elev).abs
    if h.ge o.radius || (isValid o.maxElev && v.ge o.maxElev) then ok 0
    else if o.barnes then ok (barnesC o.efold h * (if isValid o.maxElev then barnesC o.maxElev v else 1))
    else if h.gt o.efold || (isValid o.maxElev && v.gt o.maxElev) then ok 0
    else ok (cressmanC o.efold h * (if isValid o.maxElev then cressmanC o.maxElev v else 1))
  else ok MV

/-- `matrix` (src/client/Calibrator/Kriging.cpp:188-211). Each pair is computed once, with the lower index first, and stored twice; here
it is computed for both. -/
def krigMatrix [HasExp K] (o : KrigOptions K) (dist : Fl K → Fl K → Fl K → Fl K → Res (Fl K)) (locs : List (KPoint K)) :
    Res (List (List (Fl K))) :=
  grid2 locs.length locs.length fun i j =>
    if i = j then ok 1 else do
      let p ← vget locs (min i j)
      let q ← vget locs (max i j)
      let c ← calcCovar o dist p q
      ok (c * fin (414 / 1000 / (5 / 10)))

/-- `S[i][j]` and `Sindex[i][j]` (src/client/Calibrator/Kriging.cpp:240-251): the stations with positive covariance, with their index. -/
def krigNear [HasExp K] (o : KrigOptions K) (dist : Fl K → Fl K → Fl K → Fl K → Res (Fl K)) (locs : List (KPoint K)) (g : KPoint K) :
    Res (List (Nat × Fl K)) := do
  let c ← mapM (fun p => calcCovar o dist p g) locs
  ok (((List.range c.length).zip c).filter fun p => p.2.gt 0)

/-- `bias[k]` (src/client/Calibrator/Kriging.cpp:264-281) from the parameters of the station. -/
def krigStation (op : KrigOp) (pars : List (Fl K)) : Fl K :=
  match pars with
  | [] => 0
  | b :: _ => if isValid b && (op = .multiply || op = .divide) then b - 1 else b

/-- `weights` (src/client/Calibrator/Kriging.cpp:316-324). -/
def krigWeights (N : Nat) (inverse : List (List (Fl K))) (near : List (Nat × Fl K)) : Res (List (Fl K)) :=
  mapM (fun i => foldM (fun w (p : Nat × Fl K) => do
    let r ← vget2 inverse i p.1
    ok (w + r * p.2)) (0 : Fl K) near) (upto N)

/-- `finalBias` (src/client/Calibrator/Kriging.cpp:331-339) from pairs of a bias and a weight. -/
def krigDot (acc : Fl K) : List (Fl K × Fl K) → Fl K
  | [] => acc
  | p :: t => if isValid p.1 then krigDot (acc + p.1 * p.2) t else MV

/-- `ImaxCovar` (src/client/Calibrator/Kriging.cpp:296-304): a position in the list of near stations. -/
def krigNearest (near : List (Nat × Fl K)) : Nat :=
  (near.foldl (fun (s : Nat × Option (Nat × Fl K)) p =>
    (s.1 + 1, match s.2 with
      | none => some (s.1, p.2)
      | some (k, c) => if p.2.gt c then some (s.1, p.2) else some (k, c))) (0, none)).2.elim 0 Prod.fst

/-- `cvMatrix` (src/client/Calibrator/Kriging.cpp:306-311); `n` is the number of near stations. -/
def krigHoldOut (matrix : List (List (Fl K))) (k n : Nat) : List (List (Fl K)) :=
  matrix.mapIdx fun i row => row.mapIdx fun j v =>
    if i = k ∧ j = k then 1 else if (i = k ∧ j < n) ∨ (j = k ∧ i < n) then 0 else v

/-- `weights` of all stations (src/client/Calibrator/Kriging.cpp:295-328). `invert` is `Util::inverse`. For cross validation the code keeps
the new inverse in a variable shared by all threads; here there is one thread. -/
def krigAllWeights (cv : Bool) (invert : List (List (Fl K)) → List (List (Fl K))) (matrix : List (List (Fl K))) (N : Nat)
    (near : List (Nat × Fl K)) : Res (List (Fl K)) :=
  if cv then do
    let k := krigNearest near
    let w ← krigWeights N (invert (krigHoldOut matrix k near.length)) (near.mapIdx fun i p => if i = k then (p.1, 0) else p)
    vset w k 0
  else krigWeights N (invert matrix) near

/-- The mean is added to the fluctuation (src/client/Calibrator/Kriging.cpp:342-347). -/
def krigRestore (op : KrigOp) (b : Fl K) : Fl K :=
  match op with
  | .multiply => b + 1
  | .divide => b - 1
  | _ => b

/-- `finalBias` at one grid point (src/client/Calibrator/Kriging.cpp:287-347); `none` if nothing is done. -/
def krigPoint (op : KrigOp) (cv : Bool) (invert : List (List (Fl K)) → List (List (Fl K))) (matrix : List (List (Fl K)))
    (bias : List (Fl K)) (near : List (Nat × Fl K)) : Res (Option (Fl K)) :=
  if near.isEmpty then ok none
  else do
    let w ← krigAllWeights cv invert matrix bias.length near
    let b := krigDot 0 (bias.zip w)
    ok (if isValid b then some (krigRestore op b) else none)

/-- `finalBias` with the auxiliary weight (src/client/Calibrator/Kriging.cpp:354-362). -/
def krigAdjust [FloorRing K] [HasExp K] (op : KrigOp) (b weight : Fl K) : Fl K :=
  match op with
  | .add | .subtract => b * weight
  | .multiply | .divide => Fl.pow b weight

/-- The change of one value (src/client/Calibrator/Kriging.cpp:364-379). -/
def krigApply (op : KrigOp) (v b : Fl K) : Fl K :=
  match op with
  | .add => v + b
  | .subtract => v - b
  | .multiply => v * b
  | .divide => v / b

/-- The members of one grid point (src/client/Calibrator/Kriging.cpp:350-383). `finalBias` is changed from member to member if there is an
auxiliary variable. -/
def krigMembers [FloorRing K] [HasExp K] (op : KrigOp) (aux : Option (Nat → Fl K)) (E y x : Nat) (b : Fl K) (f : FieldC K) :
    Res (FieldC K) := do
  let r ← foldM (fun (s : FieldC K × Fl K) e => do
    let v ← s.1.get y x e
    let b := match aux with | none => s.2 | some w => krigAdjust op s.2 (w e)
    let g ← s.1.set y x e (krigApply op v b)
    ok (g, b)) (f, b) (List.range E)
  ok r.1

/-- One time (src/client/Calibrator/Kriging.cpp:283-386). -/
def krigField [FloorRing K] [HasExp K] (op : KrigOp) (cv : Bool) (invert : List (List (Fl K)) → List (List (Fl K)))
    (matrix : List (List (Fl K))) (aux : Option (Nat → Nat → Nat → Fl K)) (Y X E : Nat) (bias : List (Fl K))
    (near : Nat → Nat → List (Nat × Fl K)) (f : FieldC K) : Res (FieldC K) :=
  FieldC.forCells Y X (fun f y x => do
    let c ← krigPoint op cv invert matrix bias (near y x)
    match c with
    | none => ok f
    | some b => krigMembers op (aux.map fun w => w y x) E y x b f) f

/-- The weight of the auxiliary variable (src/client/Calibrator/Kriging.cpp:142-159) from its values in the window. -/
def krigAuxWeight (lower upper : Fl K) (values : List (Fl K)) : Fl K :=
  let v := values.filter isValid
  if v.length = 0 then 1 else Fl.ofNat (v.filter fun a => a.ge lower && a.le upper).length / Fl.ofNat v.length

/-- `CalibratorKriging::calibrateCore` (src/client/Calibrator/Kriging.cpp:92-389). `aux t y x e` are the weights of the auxiliary variable,
`pars t k` the parameters of a station. -/
def kriging [FloorRing K] [HasExp K] (o : KrigOptions K) (dist : Fl K → Fl K → Fl K → Fl K → Res (Fl K))
    (invert : List (List (Fl K)) → List (List (Fl K))) (op : KrigOp) (cv : Bool) (aux : Option (Nat → Nat → Nat → Nat → Fl K))
    (Y X E : Nat) (points : Nat → Nat → KPoint K) (locationDependent : Bool) (locs : List (KPoint K)) (pars : Nat → Nat → List (Fl K))
    (fields : List (FieldC K)) : Res (List (FieldC K)) :=
  if !((List.range Y).any fun y => (List.range X).any fun x => (points y x).valid) then ok fields
  else if !locationDependent then error
  else do
    let matrix ← krigMatrix o dist locs
    let near ← mapM (fun y => mapM (fun x => krigNear o dist locs (points y x)) (List.range X)) (List.range Y)
    eachTime (fun t f => krigField op cv invert matrix (aux.map fun w => w t) Y X E
      ((List.range locs.length).map fun k => krigStation op (pars t k)) (fun y x => ((near[y]?.getD [])[x]?.getD [])) f) fields

/-- The sums and the number of cases with an observation and a forecast (src/client/Calibrator/Kriging.cpp:429-442); a case is an
observation and the ensemble. The mean is `Util::calculateStat`. -/
def krigSums (data : List (Fl K × List (Fl K))) : Fl K × Fl K × Nat :=
  data.foldl (fun s d =>
    let t := sumCount d.2
    let mean := if 0 < t.2 then t.1 / Fl.ofNat t.2 else MV
    if isValid d.1 && isValid mean then (s.1 + d.1, s.2.1 + mean, s.2.2 + 1) else s) (0, 0, 0)

/-- `CalibratorKriging::train` (src/client/Calibrator/Kriging.cpp:427-474). -/
def krigTrain (op : KrigOp) (data : List (Fl K × List (Fl K))) : Fl K :=
  let s := krigSums data
  if s.2.2 = 0 then 0
  else match op with
    | .add => (s.1 - s.2.1) / Fl.ofNat s.2.2
    | .subtract => (s.2.1 - s.1) / Fl.ofNat s.2.2
    | .multiply => s.1 / s.2.1
    | .divide => s.2.1 / s.1

end Gridpp.Client
