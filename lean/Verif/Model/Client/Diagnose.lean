import Verif.Model.Client.WindDirection
import Verif.Model.Client.Stencil
import Verif.Model.Physics

/-!
# src/client/Calibrator/DiagnoseHumidity.cpp and src/client/Calibrator/DiagnoseWind.cpp

The input fields are functions of time; one of them may be the field that is changed, since every value is read where it is replaced,
and before. The tests of the options in the constructors are left out.
-/

set_option linter.unusedSectionVars false

namespace Gridpp.Client
open Fl Res

variable {K : Type} [Field K] [LinearOrder K]

/-- One member of the loops of both calibrators (src/client/Calibrator/DiagnoseHumidity.cpp:47-48, 66-67, 97-105 and
src/client/Calibrator/DiagnoseWind.cpp:45-46, 64-65, 83-84, 102-108): nothing is written where an input is missing. -/
def diagnoseMember (a b : FieldC K) (fn : Nat → Nat → Nat → Fl K → Fl K → Res (Fl K)) (f : FieldC K) (y x e : Nat) : Res (FieldC K) := do
  let va ← a.get y x e
  let vb ← b.get y x e
  if isValid va && isValid vb then do
    let v ← fn y x e va vb
    f.set y x e v
  else ok f

/-- One time of both calibrators; `has` tells whether all the variables are in the file. -/
def diagnoseField (Y X E : Nat) (has : Bool) (a b : FieldC K) (fn : Nat → Nat → Nat → Fl K → Fl K → Res (Fl K)) (f : FieldC K) :
    Res (FieldC K) :=
  if has then FieldC.forAll Y X E (diagnoseMember a b fn) f else error

/-! ### Humidity -/

/-- `computeDewpoint` (src/client/Calibrator/DiagnoseHumidity.cpp:114-130). -/
def computeDewpoint [HasExp K] (temperature rh : Fl K) : Fl K :=
  if isValid temperature && isValid rh then
    let tempC := temperature - fin (27315 / 100)
    let e := rh * fin (611 / 1000) * Fl.exp ((fin (1763 / 100) * tempC) / (tempC + fin (24304 / 100)))
    let tdC := (fin (1169 / 10) + fin (24304 / 100) * Fl.log e) / (fin (1678 / 100) - Fl.log e)
    let td := tdC + fin (27315 / 100)
    if le td temperature then td else temperature
  else MV

/-- `mEwt` (src/client/Calibrator/DiagnoseHumidity.cpp:132-138), in millionths. -/
def ewtC : List Nat :=
  [34, 89, 220, 517, 1155, 2472,
   5080, 10050, 19210, 35530, 63560, 111100,
   189100, 313900, 508800, 807000, 1254000, 1911800,
   2862700, 4214800, 6107800, 8719200, 12272000, 17044000,
   23373000, 31671000, 42430000, 56236000, 73777000, 95855000,
   123400000, 157460000, 199260000, 250160000, 311690000, 385560000,
   473670000, 578090000, 701130000, 845280000, 1013250000]

/-- `x` limited to [0, 39] (src/client/Calibrator/DiagnoseHumidity.cpp:149-153 and 159-163). -/
def ewtX (t : Fl K) : Fl K :=
  let x := (t - fin (17316 / 100)) * fin (2 / 10)
  if lt x (fin 0) then fin 0 else if gt x (fin 39) then fin 39 else x

/-- `et` and `etd` (src/client/Calibrator/DiagnoseHumidity.cpp:154-157 and 164-167). -/
def ewtValue [FloorRing K] (t : Fl K) : Res (Fl K) := do
  let l ← truncInt (ewtX t)
  assert (decide (0 ≤ l))
  assert (decide (l + 1 < 41))
  let a ← vget ewtC l
  let b ← vget ewtC (l + 1)
  ok (fin ((a : K) / 1000000) + (fin ((b : K) / 1000000) - fin ((a : K) / 1000000)) * (ewtX t - fin (l : K)))

/-- `computeRh` (src/client/Calibrator/DiagnoseHumidity.cpp:140-179). -/
def computeRh [FloorRing K] (temperature dewpoint : Fl K) : Res (Fl K) :=
  if isValid temperature && isValid dewpoint then
    if le temperature dewpoint then ok (fin 1)
    else do
      let et ← ewtValue temperature
      let etd ← ewtValue dewpoint
      let rh := etd / et
      let rh := if lt rh (fin 0) then fin 0 else rh
      ok (if gt rh (fin 1) then fin 1 else rh)
  else ok MV

/-- `computeWetbulb` (src/client/Calibrator/DiagnoseHumidity.cpp:181-199). -/
def computeWetbulb [FloorRing K] [HasExp K] (temperature pressure rh : Fl K) : Fl K :=
  let tempC := temperature - fin (27315 / 100)
  if le tempC (fin (-(24304 / 100))) || le rh (fin 0) then MV
  else if isValid tempC && isValid pressure && isValid rh then
    let e := rh * fin (611 / 1000) * Fl.exp ((fin (1763 / 100) * tempC) / (tempC + fin (24304 / 100)))
    let td := (fin (1169 / 10) + fin (24304 / 100) * Fl.log e) / (fin (1678 / 100) - Fl.log e)
    let gamma := fin (66 / 100000) * pressure / fin 1000
    let delta := (fin 4098 * e) / Fl.pow (td + fin (24304 / 100)) (fin 2)
    if feq (gamma + delta) (fin 0) then MV
    else (gamma * tempC + delta * td) / (gamma + delta) + fin (27315 / 100)
  else MV

/-- The pressure for the wet-bulb temperature (src/client/Calibrator/DiagnoseHumidity.cpp:95-103): of the field, if there is one. -/
def wetbulbPressure [HasExp K] (pressure : Option (FieldC K)) (elevs : List (List (Fl K))) (y x e : Nat) : Res (Fl K) := do
  let elev ← vget2 elevs y x
  match pressure with
  | some p => p.get y x e
  | none => ok (calcPressure (fin 0) (fin 101325) elev)

/-- `mCompute` of `CalibratorDiagnoseHumidity`. -/
inductive HumidityKind where
  | dewpoint | rh | wetbulb | other
  deriving DecidableEq

/-- What `CalibratorDiagnoseHumidity` finds in the file: which variables there are, and the fields of each time. `pressure` is `none` if the
option is not given; otherwise it tells whether the file has the variable. -/
structure HumidityFile (K : Type) where
  hasTemperature : Bool
  hasRh : Bool
  hasDewpoint : Bool
  hasElevs : Bool
  elevs : List (List (Fl K))
  temperature : Nat → FieldC K
  rh : Nat → FieldC K
  dewpoint : Nat → FieldC K
  pressure : Option (Bool × (Nat → FieldC K))

/-- `CalibratorDiagnoseHumidity::calibrateCore` (src/client/Calibrator/DiagnoseHumidity.cpp:25-112). -/
def diagnoseHumidity [FloorRing K] [HasExp K] (Y X E : Nat) (kind : HumidityKind) (h : HumidityFile K) (fields : List (FieldC K)) :
    Res (List (FieldC K)) :=
  eachTime (fun t f =>
    match kind with
    | .dewpoint => diagnoseField Y X E (h.hasTemperature && h.hasRh) (h.temperature t) (h.rh t) (fun _ _ _ a b => ok (computeDewpoint a b)) f
    | .rh => diagnoseField Y X E (h.hasTemperature && h.hasDewpoint) (h.temperature t) (h.dewpoint t) (fun _ _ _ a b => computeRh a b) f
    | .wetbulb =>
      diagnoseField Y X E (h.hasTemperature && h.hasRh && (h.pressure.map (·.1)).getD h.hasElevs) (h.temperature t) (h.rh t)
        (fun y x e a b => do
          let p ← wetbulbPressure (h.pressure.map fun p => p.2 t) h.elevs y x e
          ok (computeWetbulb a p b)) f
    | .other => ok f) fields

/-! ### Wind -/

/-- `mCompute` of `CalibratorDiagnoseWind`. -/
inductive WindKind where
  | x | y | speed | direction | other
  deriving DecidableEq

/-- The x component (src/client/Calibrator/DiagnoseWind.cpp:46). -/
def windX [HasTrigC K] (speed direction : Fl K) : Fl K := -speed * sinC (direction / fin 180 * fin (314159265 / 100000000))

/-- The y component (src/client/Calibrator/DiagnoseWind.cpp:65). -/
def windY [HasTrigC K] (speed direction : Fl K) : Fl K := -speed * cosC (direction / fin 180 * fin (314159265 / 100000000))

/-- The speed (src/client/Calibrator/DiagnoseWind.cpp:84). -/
def speedOf [HasSqrt K] (x y : Fl K) : Fl K := Fl.sqrt (x * x + y * y)

/-- The direction (src/client/Calibrator/DiagnoseWind.cpp:103-105). Zeros have no sign here; the wind (0, 0) has the direction of
`atan2(+0, +0)`, in the code it has that of `atan2(-0, -0)`. -/
def directionOf [HasAtan2 K] (x y : Fl K) : Fl K :=
  let dir := Fl.atan2 (-x) (-y) * fin 180 / fin (314159265 / 100000000)
  if lt dir (fin 0) then dir + fin 360 else dir

/-- `CalibratorDiagnoseWind::calibrateCore` (src/client/Calibrator/DiagnoseWind.cpp:24-115); the two inputs are speed and direction, or x and
y; `hasA` and `hasB` tell whether they are in the file. -/
def diagnoseWind [HasTrigC K] [HasSqrt K] [HasAtan2 K] (Y X E : Nat) (kind : WindKind) (hasA hasB : Bool) (a b : Nat → FieldC K)
    (fields : List (FieldC K)) : Res (List (FieldC K)) :=
  eachTime (fun t f =>
    match kind with
    | .x => diagnoseField Y X E (hasA && hasB) (a t) (b t) (fun _ _ _ s d => ok (windX s d)) f
    | .y => diagnoseField Y X E (hasA && hasB) (a t) (b t) (fun _ _ _ s d => ok (windY s d)) f
    | .speed => diagnoseField Y X E (hasA && hasB) (a t) (b t) (fun _ _ _ u v => ok (speedOf u v)) f
    | .direction => diagnoseField Y X E (hasA && hasB) (a t) (b t) (fun _ _ _ u v => ok (directionOf u v)) f
    | .other => ok f) fields

end Gridpp.Client
