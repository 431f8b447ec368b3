import Verif.Model.Client.Options
import Verif.Model.Client.ParameterText
import Verif.Model.Client.Driver

/-! # The constructors of the schemes of the client and `getScheme`

src/client/Scheme.cpp:4-6; src/client/Calibrator/Calibrator.cpp:10-92; src/client/Downscaler/Downscaler.cpp:10-51; the constructors in
src/client/Calibrator/*.cpp and src/client/Downscaler/*.cpp. Each constructor reads options one after the other into members, stops the program if
something is wrong and at the end calls `Options::check`, which warns about keys that have not been read. A constructor is modelled as a list of such
steps. Numbers are exact rationals; a number that does not fit into `float` is not modelled. Members that do not depend on options are left out. -/

namespace Gridpp.Client
open Res

/-- The value of a member of a scheme. -/
inductive Setting
  | num (x : ℚ)
  | int (n : Int)
  | flag (b : Bool)
  | text (s : Str)
  | nums (xs : List ℚ)
  | texts (ss : List Str)
  | junk
  deriving DecidableEq, Repr

/-- `ss >> iValue` with a `float` (src/client/Options.h:54-55): nothing to read leaves the variable as it is; what is no number gives 0. -/
def readNum (s : Str) (old : ℚ) : ℚ :=
  let t := skipSpace s
  if t = [] then old else match scanFloat (K := ℚ) t with
    | some r => r.1
    | none => 0

/-- `ss >> iValue` with an `int` (src/client/Options.h:54-55): what is no number gives 0, a number out of range the nearest one in range. -/
def readWhole (s : Str) (old : Int) : Int :=
  let t := skipSpace s
  if t = [] then old
  else
    let u := takeSign t
    let ds := u.2.takeWhile isDigit
    let v : Int := if u.1 then -(digitsVal ds : Int) else digitsVal ds
    max (-2147483648) (min 2147483647 v)

/-- How a member gets its value from an option, with the value that it has without the option:
* `num`, `int`, `flag`, `text` are `getValue` with the default from the initialiser list;
* `uninit` is a `float` that has no initialiser;
* `nums`, `texts` are `getValues`, empty without the option (an empty part between commas leaves a `float` as it is, here 0);
* `zerosLike k` is `equals` of the calibrator threshold: as many zeros as the list `k` has numbers (Calibrator/Threshold.cpp:11-13);
* `sharesOf k` is `lafWeights` of the downscaler gradient: equal weights for the numbers in the list `k` (Downscaler/Gradient.cpp:54-58);
* `numLike k d` is `sigmaC` of the calibrator oi: the member `k` without the option (Calibrator/Oi.cpp:57-58);
* `numReset k d` is `epsilonC` of the calibrator oi: the member `k` if there is the option (Calibrator/Oi.cpp:75-76). -/
inductive OptKind
  | num (d : ℚ)
  | int (d : Int)
  | flag (d : Bool)
  | text (d : Str)
  | uninit
  | nums
  | texts
  | zerosLike (k : Str)
  | sharesOf (k : Str)
  | numLike (k : Str) (d : ℚ)
  | numReset (k : Str) (d : ℚ)
  deriving DecidableEq

/-- The members with the names of their options, the newest first. -/
abbrev Members := List (Str × Setting)

/-- A member. -/
def Members.at (v : Members) (k : Str) : Setting := (v.lookup k).getD .junk

@[inherit_doc Members.at] def Members.num (v : Members) (k : Str) : ℚ := match v.at k with
  | .num x => x
  | .int n => n
  | _ => 0

@[inherit_doc Members.at] def Members.text (v : Members) (k : Str) : Str := match v.at k with
  | .text s => s
  | _ => []

@[inherit_doc Members.at] def Members.size (v : Members) (k : Str) : Nat := match v.at k with
  | .nums xs => xs.length
  | .texts xs => xs.length
  | _ => 0

/-- The member without the option. -/
def OptKind.absent (v : Members) : OptKind → Setting
  | .num d => .num d
  | .int d => .int d
  | .flag d => .flag d
  | .text d => .text d
  | .uninit => .junk
  | .nums => .nums []
  | .texts => .texts []
  | .zerosLike k => .nums (List.replicate (v.size k) 0)
  | .sharesOf k => .nums (List.replicate (v.size k) (1 / (v.size k : ℚ)))
  | .numLike k _ => .num (v.num k)
  | .numReset _ d => .num d

/-- The member with the option, whose value is `s`. -/
def OptKind.present (v : Members) (s : Str) : OptKind → Setting
  | .num d => .num (readNum s d)
  | .int d => .int (readWhole s d)
  | .flag d => .flag (readBool s d)
  | .text d => .text (readWord s d)
  | .uninit => if skipSpace s = [] then .junk else .num (readNum s 0)
  | .nums => .nums ((commaParts [] s).map (fun w => readNum w 0))
  | .texts => .texts ((commaParts [] s).map (fun w => readWord w []))
  | .zerosLike _ => .nums ((commaParts [] s).map (fun w => readNum w 0))
  | .sharesOf _ => .nums ((commaParts [] s).map (fun w => readNum w 0))
  | .numLike _ d => .num (readNum s d)
  | .numReset k _ => .num (v.num k)

/-- When an option is read at all: `optionIs k w` stands for a condition on the member that is read from the option `k` and that has another value
without the option (`mStatType == Util::StatTypeQuantile`). -/
inductive OptCond
  | always
  | given (k : Str)
  | optionIs (k w : Str)
  deriving DecidableEq

/-- Whether the condition holds for the pairs. -/
def OptCond.holds (ps : List (Str × Str)) : OptCond → Bool
  | .always => true
  | .given k => ps.any (fun p => p.1 = k)
  | .optionIs k w => match ps.find? (fun p => p.1 = k) with
    | some p => readWord p.2 [] = w
    | none => false

/-- A step of a constructor: reading an option, `Util::error` (or an assertion) unless a condition on the members holds, and `iOptions.check()`. The
first two are only done under a condition. -/
inductive SchemeStep
  | read (key : Str) (kind : OptKind) (required : Bool) (cond : OptCond)
  | test (cond : OptCond) (p : Members → Bool)
  | check

/-- A scheme with its members, the keys that have been read and whether `check` has given a warning. -/
structure MadeScheme where
  members : Members
  accessed : List Str
  warned : Bool
  deriving DecidableEq

/-- One step. -/
def schemeStep (ps : List (Str × Str)) (m : MadeScheme) : SchemeStep → Res MadeScheme
  | .read key kind required cond =>
    if !cond.holds ps then ok { m with members := (key, kind.absent m.members) :: m.members }
    else match ps.find? (fun p => p.1 = key) with
      | some p => ok { m with members := (key, kind.present m.members p.2) :: m.members, accessed := key :: m.accessed }
      | none => if required then abort else ok { m with members := (key, kind.absent m.members) :: m.members }
  | .test cond p => if !cond.holds ps || p m.members then ok m else abort
  | .check => ok { m with warned := m.warned || !checkOptions ⟨ps, m.accessed⟩ }

/-- `getValue` and `getValues`. -/
def opt (key : String) (kind : OptKind) : SchemeStep := .read key.toList kind false .always

/-- `getRequiredValue` and `getRequiredValues`. -/
def req (key : String) (kind : OptKind) : SchemeStep := .read key.toList kind true .always

/-- A `std::string` that is empty at first. -/
def name' : OptKind := .text []

/-- `Util::error` unless the text is one of these. -/
def oneOf (key : String) (ws : List String) : SchemeStep := .test .always (fun v => (ws.map String.toList).contains (v.text key.toList))

/-- `Util::getStatType` (src/client/Util.cpp:429-455) and the error if it returns false, and then `quantile`, e.g.
src/client/Calibrator/Neighbourhood.cpp:23-37. -/
def statSteps (quantile : ℚ) : List SchemeStep := [
  opt "stat" (.text "mean".toList),
  oneOf "stat" ["mean", "min", "max", "median", "quantile", "std", "sum"],
  .read "quantile".toList (.num quantile) true (.optionIs "stat".toList "quantile".toList),
  .test (.optionIs "stat".toList "quantile".toList)
    (fun v => v.num "quantile".toList ≠ -999 && 0 ≤ v.num "quantile".toList && v.num "quantile".toList ≤ 1)]

/-- src/client/Calibrator/Zaga.cpp:9-45. -/
def zagaSteps : List SchemeStep := [opt "fracThreshold" (.num 0.5), opt "precipLowQuantile" (.num (-999)), opt "precipMiddleQuantile" (.num (-999)),
  opt "precipHighQuantile" (.num (-999)), opt "lowVariable" name', opt "middleVariable" name', opt "highVariable" name', opt "popVariable" name',
  opt "neighbourhoodSize" (.int 0), opt "popThreshold" (.num 0.5), opt "maxEnsMean" (.num 100), opt "6h" (.flag false),
  .test .always (fun v => v.num "maxEnsMean".toList ≠ -999 && 0 < v.num "maxEnsMean".toList), .test .always (fun v => 0 ≤ v.num "neighbourhoodSize".toList), .check]

/-- src/client/Calibrator/Cloud.cpp:4-11. -/
def cloudSteps : List SchemeStep := [req "precipVariable" name', opt "value" (.num 1), .check]

/-- src/client/Calibrator/Deaccumulate.cpp:4-9. -/
def deaccumulateSteps : List SchemeStep := [opt "window" (.int 1), .check]

/-- src/client/Calibrator/Gaussian.cpp:9-21. -/
def gaussianSteps : List SchemeStep := [opt "neighbourhoodSize" (.int 0), .test .always (fun v => 0 ≤ v.num "neighbourhoodSize".toList), .check]

/-- src/client/Calibrator/Neighbourhood.cpp:7-39. -/
def neighbourhoodSteps : List SchemeStep := [opt "radius" (.int 3), opt "fast" (.flag true), opt "approx" (.flag false),
  .test .always (fun v => 0 ≤ v.num "radius".toList)] ++ statSteps (-999) ++ [.check]

/-- src/client/Calibrator/DiagnoseHumidity.cpp:6-24; `check` is not called. -/
def diagnoseHumiditySteps : List SchemeStep := [req "temperature" name', opt "rh" name', opt "dewpoint" name', opt "pressure" name', req "compute" name',
  .test .always (fun v => !(v.text "compute".toList = "dewpoint".toList && v.text "rh".toList = [])),
  .test .always (fun v => !(v.text "compute".toList = "rh".toList && v.text "dewpoint".toList = [])),
  .test .always (fun v => !(v.text "compute".toList = "wetbulb".toList && v.text "rh".toList = []))]

/-- src/client/Calibrator/DiagnoseWind.cpp:5-23; `check` is not called. -/
def diagnoseWindSteps : List SchemeStep := [opt "x" name', opt "y" name', opt "speed" name', opt "direction" name', req "compute" name',
  .test .always (fun v => !((v.text "compute".toList = "x".toList || v.text "compute".toList = "y".toList) &&
    (v.text "speed".toList = [] || v.text "direction".toList = []))),
  .test .always (fun v => !((v.text "compute".toList = "speed".toList || v.text "compute".toList = "direction".toList) &&
    (v.text "x".toList = [] || v.text "y".toList = [])))]

/-- src/client/Calibrator/Oi.cpp:10-112. Without `transform` there is no transformation (here the empty text). -/
def oiSteps : List SchemeStep := [opt "biasVariable" name', opt "d" (.num 30000), opt "h" (.num 100), opt "w" (.num 0.2), opt "dc" (.num 10000),
  opt "maxLocations" (.int 20), opt "sigma" (.num 1), opt "sigmaC" (.numLike "sigma".toList 1), opt "delta" (.num 1), opt "deltaVariable" name',
  opt "gamma" (.num 0.25), opt "mu" (.num 0.9), opt "x" (.int (-999)), opt "y" (.int (-999)), opt "extrapolate" (.flag false), opt "minRho" (.num 0.0013),
  opt "saveDiff" (.flag false), opt "maxBytes" (.num 6442450944), opt "minEns" (.int 5), opt "numVariable" name', opt "elevGradient" (.num (-999)),
  opt "useEns" (.flag true), opt "wmin" (.num (-999)), opt "epsilon" (.num 0.5), opt "epsilonC" (.numReset "epsilon".toList 0.5), opt "c" (.num 1.03),
  opt "lambda" (.num 0.5), opt "crossValidate" (.flag false), opt "landOnly" (.flag false), opt "diaFile" name', opt "diagnose" (.flag false),
  opt "newDeltaVar" (.num 1), opt "boxCoxThreshold" (.num (-999)), opt "maxElevDiff" (.num 200), opt "transform" name', oneOf "transform" ["", "boxcox"],
  opt "rhoType" (.text "gaussian".toList), oneOf "rhoType" ["gaussian", "soar"], .check]

/-- src/client/Calibrator/Override.cpp:7-14. -/
def overrideSteps : List SchemeStep := [opt "radius" (.int 0), opt "maxElevDiff" (.num (-999)), .check]

/-- src/client/Calibrator/Phase.cpp:7-17. -/
def phaseSteps : List SchemeStep := [req "temperature" name', req "precipitation" name', opt "snowThreshold" (.num 273.15),
  opt "rainThreshold" (.num 274.15), .check]

/-- src/client/Calibrator/WindDirection.cpp:9-13. -/
def windDirectionSteps : List SchemeStep := [req "directionVariable" name', .check]

/-- src/client/Calibrator/Kriging.cpp:8-90. -/
def krigingSteps : List SchemeStep := [opt "efoldDist" (.num 30000), opt "radius" (.num 30000), opt "maxElevDiff" (.num (-999)),
  .test .always (fun v => 0 ≤ v.num "efoldDist".toList), .test .always (fun v => v.num "maxElevDiff".toList = -999 || 0 ≤ v.num "maxElevDiff".toList),
  .test .always (fun v => 0 ≤ v.num "radius".toList), opt "type" (.text "cressman".toList), oneOf "type" ["cressman", "barnes"], opt "approxDist" (.flag true),
  opt "operator" (.text "add".toList), oneOf "operator" ["add", "subtract", "multiply", "divide"], opt "auxVariable" name',
  .read "range".toList .nums true (.given "auxVariable".toList),
  .test (.given "auxVariable".toList) (fun v => match v.at "range".toList with
    | .nums [a, b] => a ≤ b
    | _ => false),
  .read "window".toList (.int 0) false (.given "auxVariable".toList), opt "crossValidate" (.flag false), .check]

/-- src/client/Calibrator/Window.cpp:4-49. -/
def windowSteps : List SchemeStep := [opt "length" (.int 7), opt "before" (.flag false), opt "keepMissing" (.flag false),
  opt "edgePolicy" (.text "compute".toList), oneOf "edgePolicy" ["compute", "missing"], .test .always (fun v => 1 ≤ v.num "length".toList)] ++ statSteps (-999) ++
  [.check]

/-- src/client/Calibrator/Qc.cpp:7-16, without the warning if both are missing. -/
def qcSteps : List SchemeStep := [opt "min" (.num (-999)), opt "max" (.num (-999)), .check]

/-- src/client/Calibrator/Qnh.cpp:5-9. -/
def qnhSteps : List SchemeStep := [req "pressureVariable" name', .check]

/-- src/client/Calibrator/Qq.cpp:7-38. -/
def qqSteps : List SchemeStep := [opt "extrapolation" (.text "1to1".toList), oneOf "extrapolation" ["1to1", "meanSlope", "nearestSlope", "zero"],
  opt "quantiles" .nums, opt "extraObs" .nums, opt "extraFcst" .nums, .test .always (fun v => v.size "extraObs".toList = v.size "extraFcst".toList),
  opt "x" (.int (-999)), opt "y" (.int (-999)), .check]

/-- src/client/Calibrator/Regression.cpp:7-15. -/
def regressionSteps : List SchemeStep := [opt "order" (.int 1), opt "intercept" (.flag true), opt "variables" .texts, .check]

/-- src/client/Calibrator/Mask.cpp:6-12. -/
def maskSteps : List SchemeStep := [opt "keep" (.flag true), .check]

/-- src/client/Calibrator/Coastal.cpp:8-17. -/
def coastalSteps : List SchemeStep := [opt "searchRadius" (.int 3), opt "minLafDiff" (.num 0.1), opt "useNN" (.flag false), .check]

/-- src/client/Calibrator/Threshold.cpp:7-25. -/
def thresholdSteps : List SchemeStep := [req "thresholds" .nums, req "values" .nums, opt "equals" (.zerosLike "thresholds".toList),
  .test .always (fun v => v.size "values".toList = v.size "thresholds".toList + 1), .test .always (fun v => v.size "equals".toList = v.size "thresholds".toList), .check]

/-- src/client/Downscaler/Smart.cpp:6-15. -/
def smartSteps : List SchemeStep := [opt "radius" (.int 3), opt "num" (.int 5), opt "minElevDiff" (.num (-999)), .check]

/-- src/client/Downscaler/Gradient.cpp:6-61. The name of the input variable, which `elevGradientVariable` has without the option, is the empty text
here. -/
def gradientSteps : List SchemeStep := [opt "constantElevGradient" (.num (-999)), opt "elevRadius" (.int 3), opt "minElevDiff" (.num 30),
  opt "defaultElevGradient" (.num 0), opt "minElevGradient" (.num (-999)), opt "maxElevGradient" (.num (-999)), opt "minLafForElevGradient" (.num 0),
  opt "minNumPoints" (.int 2), opt "elevGradientVariable" name', opt "lafRadius" (.int 0), opt "minLafDiff" (.num 0.1), opt "minFracSeaPoints" (.num 0),
  opt "minLafGradient" .uninit, opt "maxLafGradient" .uninit, opt "lafSearchRadii" .nums, opt "lafWeights" .nums, opt "logTransform" (.flag false),
  opt "averageNeighbourhood" (.flag false), opt "saveGradient" name', opt "downscaler" (.text "nearestNeighbour".toList), opt "limit" (.flag false),
  opt "lafSearchRadii" .nums, opt "lafWeights" (.sharesOf "lafSearchRadii".toList),
  .test .always (fun v => v.size "lafSearchRadii".toList = v.size "lafWeights".toList), .check]

/-- src/client/Downscaler/Upscale.cpp:9-29. -/
def upscaleSteps : List SchemeStep := statSteps 0 ++ [.check]

/-- The constructors in `Calibrator::getScheme` (src/client/Calibrator/Calibrator.cpp:15-92), after the constructor of `Scheme`
(src/client/Scheme.cpp:4-6). Those of `accumulate`, `bct`, `sort` and `altitude` only call `check`. -/
def calibratorTable : List (String × List SchemeStep) := [("zaga", zagaSteps), ("cloud", cloudSteps), ("accumulate", [.check]),
  ("deaccumulate", deaccumulateSteps), ("gaussian", gaussianSteps), ("neighbourhood", neighbourhoodSteps), ("diagnoseHumidity", diagnoseHumiditySteps),
  ("diagnoseWind", diagnoseWindSteps), ("oi", oiSteps), ("override", overrideSteps), ("phase", phaseSteps), ("windDirection", windDirectionSteps),
  ("kriging", krigingSteps), ("window", windowSteps), ("qc", qcSteps), ("qnh", qnhSteps), ("qq", qqSteps), ("regression", regressionSteps),
  ("bct", [.check]), ("sort", [.check]), ("altitude", [.check]), ("mask", maskSteps), ("coastal", coastalSteps), ("threshold", thresholdSteps)]

/-- The constructors in `Downscaler::getScheme` (src/client/Downscaler/Downscaler.cpp:23-51). Those of `nearestNeighbour`, `bypass`, `pressure` and
`bilinear` only call `check`. -/
def downscalerTable : List (String × List SchemeStep) := [("nearestNeighbour", [.check]), ("smart", smartSteps), ("bypass", [.check]),
  ("pressure", [.check]), ("gradient", gradientSteps), ("bilinear", [.check]), ("upscale", upscaleSteps)]

/-- A scheme is made: the constructor of `Scheme` reads `debug`, then the own constructor follows; `Util::error` for a name that is not known. -/
def makeScheme (table : List (String × List SchemeStep)) (name : String) (o : Options) : Res MadeScheme :=
  match table.lookup name with
  | none => abort
  | some steps => foldM (schemeStep o.pairs) ⟨[], o.accessed, false⟩ (opt "debug" (.flag false) :: steps)

end Gridpp.Client
