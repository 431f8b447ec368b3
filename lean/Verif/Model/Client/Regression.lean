import Verif.Model.Client.Qq

/-!
# src/client/Calibrator/Regression.cpp

The parameter file is a function that gives the parameters of a time and grid point, see Model/Client/ParameterFile.lean.
-/

set_option linter.unusedSectionVars false

namespace Gridpp.Client
open Fl Res

variable {K : Type} [Field K] [LinearOrder K]

/-- `pow(x, p)` for a number `x` and a natural number `p`; only used for a valid `x`. -/
def powNat : Fl K → Nat → Fl K
  | fin q, p => fin (q ^ p)
  | _, _ => nan

/-- The polynomial (src/client/Calibrator/Regression.cpp:81-90): `p` and `total` of the loop, and the parameters from `p` on. -/
def polyLoop (raw : Fl K) : List (Fl K) → Nat → Fl K → Fl K
  | [], _, total => total
  | coeff :: t, p, total => if isValid coeff then polyLoop raw t (p + 1) (total + coeff * powNat raw p) else MV

/-- The sum over the variables (src/client/Calibrator/Regression.cpp:68-77): the parameters and predictors from `p` on. A predictor
`none` is the field `f` that is being changed. -/
def multiLoop (f : FieldC K) (y x e : Nat) : List (Fl K) → List (Option (FieldC K)) → Fl K → Res (Fl K)
  | [], _, total => ok total
  | coeff :: t, preds, total =>
    if isValid coeff then
      match preds with
      | [] => .ub
      | p :: preds => do
        let v ← (p.getD f).get y x e
        multiLoop f y x e t preds (total + coeff * v)
    else ok MV

/-- The new value for a valid `raw` (src/client/Calibrator/Regression.cpp:67-92). -/
def regressionValue (numVariables : Nat) (preds : List (Option (FieldC K))) (params : List (Fl K)) (f : FieldC K) (y x e : Nat) (raw : Fl K) :
    Res (Fl K) :=
  if 0 < numVariables then multiLoop f y x e params preds 0 else ok (polyLoop raw params 0 0)

/-- One member (src/client/Calibrator/Regression.cpp:66-96). -/
def regressionMember (numVariables : Nat) (preds : List (Option (FieldC K))) (params : List (Fl K)) (f : FieldC K) (y x e : Nat) :
    Res (FieldC K) := do
  let raw ← f.get y x e
  if isValid raw then do
    let value ← regressionValue numVariables preds params f y x e raw
    f.set y x e value
  else f.set y x e MV

/-- `CalibratorRegression::calibrateCore` (src/client/Calibrator/Regression.cpp:16-102). `preds t` are the fields of the variables at
time `t`: the field that is changed is `none`, the constant term 1 a field with all values 1. -/
def regression (Y X E : Nat) (numVariables : Nat) (numParameters : Int) (preds : Nat → List (Option (FieldC K)))
    (params : Nat → Nat → Nat → List (Fl K)) (fields : List (FieldC K)) : Res (List (FieldC K)) :=
  if numParameters = 0 then error
  else if 0 < numVariables ∧ numParameters ≠ numVariables then error
  else eachTime (fun t => FieldC.forAll Y X E fun f y x e => regressionMember numVariables (preds t) (params t y x) f y x e) fields

/-- The sums of the training (src/client/Calibrator/Regression.cpp:116-133): `totalObs`, `totalForecast`, `totalForecast2`,
`totalObsForecast` over the pairs with a valid observation and ensemble mean. -/
def regressionSums (pairs : List (Fl K × Fl K)) : Fl K × Fl K × Fl K × Fl K :=
  pairs.foldl (fun s p => (s.1 + p.1, s.2.1 + p.2, s.2.2.1 + p.2 * p.2, s.2.2.2 + p.1 * p.2)) (0, 0, 0, 0)

/-- `CalibratorRegression::train` (src/client/Calibrator/Regression.cpp:104-170). -/
def regressionTrain (order : Int) (intercept : Bool) (numVariables : Nat) (data : List (Fl K × List (Fl K))) : Res (List (Fl K)) :=
  if order > 1 then error
  else if 0 < numVariables then error
  else
    let pairs := trainPairs data
    let s := regressionSums pairs
    if pairs.length = 0 then error
    else
      let counter : Fl K := Fl.ofNat pairs.length
      let meanObs := s.1 / counter
      let meanForecast := s.2.1 / counter
      let meanForecast2 := s.2.2.1 / counter
      let meanObsForecast := s.2.2.2 / counter
      if order = 0 then ok [meanObs]
      else if order = 1 then
        if intercept then
          let slope := (meanObsForecast - meanForecast * meanObs) / (meanForecast2 - meanForecast * meanForecast)
          ok [meanObs - slope * meanForecast, slope]
        else ok [0, meanObsForecast / meanForecast2]
      else .abort

end Gridpp.Client
