import Verif.Base.Pow
import Verif.Base.Res

/-! # Humidity, pressure and wind (src/api/humidity.cpp, pressure.cpp, qnh.cpp, wind.cpp)

Decimal constants stand for their exact values; their rounding to `float` is not modelled. -/

set_option linter.unusedSectionVars false

namespace Gridpp
open Fl Res

variable {K : Type} [Field K] [LinearOrder K]

/-- The table `mEwt` of `relative_humidity` (src/api/humidity.cpp:34-40) in units of 1e-6. -/
def ewtTable : List Nat :=
  [34, 89, 220, 517, 1155, 2472,
   5080, 10050, 19210, 35530, 63560, 111100,
   189100, 313900, 508800, 807000, 1254000, 1911800,
   2862700, 4214800, 6107800, 8719200, 12272000, 17044000,
   23373000, 31671000, 42430000, 56236000, 73777000, 95855000,
   123400000, 157460000, 199260000, 250160000, 311690000, 385560000,
   473670000, 578090000, 701130000, 845280000, 1013250000]

/-- `x` of `relative_humidity` limited to [0, 39] (src/api/humidity.cpp:49-53 and 59-63). -/
def ewtPosition (t : Fl K) : Fl K :=
  if lt ((t - fin (17316 / 100)) * fin (2 / 10)) (fin 0) then fin 0
  else if gt ((t - fin (17316 / 100)) * fin (2 / 10)) (fin 39) then fin 39
  else (t - fin (17316 / 100)) * fin (2 / 10)

/-- `mEwt[i]`, undefined outside the array. -/
def ewtGet (i : Int) : Res (Fl K) := do
  let n ← vget ewtTable i
  ok (fin ((n : K) / 1000000))

section
variable [FloorRing K]

/-- `int(x)` for a float: the integer part; undefined for values that are not finite. The range of `int` is not modelled. -/
def truncInt : Fl K → Res Int
  | fin x => ok (if 0 ≤ x then ⌊x⌋ else ⌈x⌉)
  | _ => ub

/-- The interpolation in the table (src/api/humidity.cpp:49-57 and 59-67, two copies of the same code). -/
def ewtAt (t : Fl K) : Res (Fl K) := do
  let l ← truncInt (ewtPosition t)
  assert (decide (0 ≤ l))
  assert (decide (l + 1 < 41))
  let a ← ewtGet l
  let b ← ewtGet (l + 1)
  ok (a + (b - a) * (ewtPosition t - fin (l : K)))

/-- The last lines of `relative_humidity` (src/api/humidity.cpp:70-73). -/
def clampUnit (rh : Fl K) : Fl K :=
  if gt (if lt rh (fin 0) then fin 0 else rh) (fin 1) then fin 1 else if lt rh (fin 0) then fin 0 else rh

/-- `gridpp::relative_humidity(float, float)` (src/api/humidity.cpp:33-79). -/
def relativeHumidity (temperature dewpoint : Fl K) : Res (Fl K) :=
  if isValid temperature && isValid dewpoint then
    if le temperature dewpoint then ok (fin 1)
    else do
      let et ← ewtAt temperature
      let etd ← ewtAt dewpoint
      ok (clampUnit (etd / et))
  else ok MV

end

section
variable [HasExp K]

/-- The vapour pressure `e` (src/api/humidity.cpp:9 and 95). -/
def vapourPressure (tempC rh : Fl K) : Fl K :=
  rh * fin (611 / 1000) * Fl.exp ((fin (1763 / 100) * tempC) / (tempC + fin (24304 / 100)))

/-- The dew point in degrees Celsius from the vapour pressure (src/api/humidity.cpp:10 and 96). -/
def dewpointC (e : Fl K) : Fl K := (fin (1169 / 10) + fin (24304 / 100) * Fl.log e) / (fin (1678 / 100) - Fl.log e)

/-- `gridpp::dewpoint(float, float)` (src/api/humidity.cpp:5-21). -/
def dewpoint (temperature rh : Fl K) : Fl K :=
  if isValid temperature && isValid rh then
    let td := dewpointC (vapourPressure (temperature - fin (27315 / 100)) rh) + fin (27315 / 100)
    if le td temperature then td else temperature
  else MV

/-- `gridpp::pressure(float…)` (src/api/pressure.cpp:5-13). -/
def pressure (ielev oelev ipressure itemperature : Fl K) : Fl K :=
  if isValid ielev && isValid oelev && isValid ipressure && isValid itemperature then
    ipressure * Fl.exp (-(fin (980665 / 100000)) * fin (289644 / 10000000) * (oelev - ielev) / (fin (83144598 / 10000000) * itemperature))
  else MV

variable [FloorRing K]

/-- `gridpp::wetbulb(float, float, float)` (src/api/humidity.cpp:91-109). -/
def wetbulb (temperature pressure rh : Fl K) : Fl K :=
  let tempC := temperature - fin (27315 / 100)
  if le tempC (fin (-(24304 / 100))) || le rh (fin 0) then MV
  else if isValid tempC && isValid pressure && isValid rh then
    let e := vapourPressure tempC rh
    let td := dewpointC e
    let gamma := fin (66 / 100000) * pressure / fin 1000
    let delta := (fin 4098 * e) / Fl.pow (td + fin (24304 / 100)) (fin 2)
    if feq (gamma + delta) (fin 0) then MV
    else (gamma * tempC + delta * td) / (gamma + delta) + fin (27315 / 100)
  else MV

/-- The exponent `(CRGas*L)/g` of `qnh` (src/api/qnh.cpp:10-24). -/
def qnhExponent : K := (287053 / 1000 * (65 / 10000)) / (980665 / 100000)

/-- `gridpp::qnh(float, float)` (src/api/qnh.cpp:6-29). -/
def qnh (pressure altitude : Fl K) : Fl K :=
  if feq pressure (fin 0) then fin 0
  else if isValid altitude && isValid pressure then
    fin 101325 * Fl.pow
      (Fl.pow (pressure / fin 101325) ((fin (287053 / 1000) * fin (65 / 10000)) / fin (980665 / 100000)) +
        (altitude * fin (65 / 10000)) / fin (28815 / 100))
      (fin (980665 / 100000) / (fin (287053 / 1000) * fin (65 / 10000)))
  else MV

/-- `6.11 * pow(10., (7.5 * t) / (c + t))` (src/api/pressure.cpp:53, 62 and 72). -/
def magnus (c t : Fl K) : Fl K := fin (611 / 100) * Fl.pow (fin 10) ((fin (75 / 10) * t) / (c + t))

/-- The vapour pressure `e` and the dew point of `sea_level_pressure` (src/api/pressure.cpp:52-67). -/
def slpHumidity (t rh dewpoint : Fl K) : Fl K × Fl K :=
  if isValid rh then
    let e := rh * magnus (fin (2373 / 10)) t
    (e, (fin (24304 / 100) * Fl.log (e / fin (61094 / 10000))) / (fin (17625 / 1000) - Fl.log (e / fin (61094 / 10000))))
  else if isValid dewpoint then
    (magnus (fin (2373 / 10)) (dewpoint - fin (27315 / 100)), dewpoint - fin (27315 / 100))
  else (fin 0, t - fin 3)

/-- `gridpp::sea_level_pressure(float…)` (src/api/pressure.cpp:28-80). -/
def seaLevelPressure (ps altitude temperature rh dewpoint : Fl K) : Res (Fl K) :=
  if !isValid altitude then .throw .runtimeError
  else if !isValid temperature then .throw .runtimeError
  else if lt ps (fin 0) || lt temperature (fin 0) || lt rh (fin 0) || gt rh (fin 1) || lt dewpoint (fin 0) then .throw .runtimeError
  else
    let t := temperature - fin (27315 / 100)
    let ts := fin (27315 / 100) + t
    let p := ps * fin (1 / 100)
    let h := slpHumidity t rh dewpoint
    let slp :=
      if ge altitude (fin 50) then
        p * Fl.exp ((fin (980665 / 100000) * altitude / fin (28705 / 100)) / (ts + fin (1 / 2) * fin (65 / 10000) * altitude + h.1 * fin (12 / 100)))
      else if lt altitude (fin 50) then
        p + p * altitude / (fin (2927 / 100) * ((fin (27315 / 100) + t) / (fin 1 - fin (379 / 1000) * (magnus (fin (2377 / 10)) h.2 / p))))
      else fin 0
    ok (slp * fin 100)

end

/-- `atan2` of <cmath> on finite values; a parameter like the square root. -/
class HasAtan2 (K : Type) where
  atan2 : K → K → K

/-- `gridpp::wind_speed(float, float)` (src/api/wind.cpp:6-8). -/
def windSpeed [HasSqrt K] (x y : Fl K) : Fl K := Fl.sqrt (x * x + y * y)

/-- `std::atan2(y, x)`. Signed zeros are not modelled, so for two zeros (calm wind) the value is that of `atan2(+0, +0)`. Only
infinite arguments are special; they give the directions of the axes and diagonals, with `pi` the mathematical constant. -/
def Fl.atan2 [HasAtan2 K] (y x : Fl K) : Fl K :=
  match y, x with
  | nan, _ => nan
  | _, nan => nan
  | pinf, pinf => fin (HasAtan2.atan2 1 1)
  | pinf, ninf => fin (HasAtan2.atan2 1 (-1))
  | ninf, pinf => fin (HasAtan2.atan2 (-1) 1)
  | ninf, ninf => fin (HasAtan2.atan2 (-1) (-1))
  | pinf, fin _ => fin (HasAtan2.atan2 1 0)
  | ninf, fin _ => fin (HasAtan2.atan2 (-1) 0)
  | fin _, pinf => fin 0
  | fin y, ninf => fin (if y < 0 then -HasAtan2.atan2 0 (-1) else HasAtan2.atan2 0 (-1))
  | fin y, fin x => fin (HasAtan2.atan2 y x)

/-- `gridpp::pi` (include/gridpp.h:53). -/
def piConst : K := 314159265 / 100000000

/-- `gridpp::wind_direction(float, float)` (src/api/wind.cpp:20-26) with the constant as an argument. -/
def windDirectionWith [HasAtan2 K] (pi : K) (x y : Fl K) : Fl K :=
  let dir := Fl.atan2 (-x) (-y) * fin 180 / fin pi
  if lt dir (fin 0) then dir + fin 360 else dir

/-- `gridpp::wind_direction(float, float)` (src/api/wind.cpp:20-26). -/
def windDirection [HasAtan2 K] (x y : Fl K) : Fl K := windDirectionWith piConst x y

/-! ### Vectors

All loops are parallel (`#pragma omp parallel for`), so an exception in an element terminates the process. -/

/-- `dewpoint(vec, vec)` (src/api/humidity.cpp:22-32). -/
def dewpointVec [HasExp K] (temperature rh : List (Fl K)) : Res (List (Fl K)) :=
  if temperature.length ≠ rh.length then .throw .invalidArgument
  else omp (mapM (fun y => do
    let a ← vget temperature y
    let b ← vget rh y
    ok (dewpoint a b)) (upto temperature.length))

/-- `relative_humidity(vec, vec)` (src/api/humidity.cpp:80-90). -/
def relativeHumidityVec [FloorRing K] (temperature dewpoint : List (Fl K)) : Res (List (Fl K)) :=
  if temperature.length ≠ dewpoint.length then .throw .invalidArgument
  else omp (mapM (fun y => do
    let a ← vget temperature y
    let b ← vget dewpoint y
    relativeHumidity a b) (upto temperature.length))

/-- `wetbulb(vec, vec, vec)` (src/api/humidity.cpp:110-122). -/
def wetbulbVec [HasExp K] [FloorRing K] (temperature pressure rh : List (Fl K)) : Res (List (Fl K)) :=
  if temperature.length ≠ pressure.length then .throw .invalidArgument
  else if temperature.length ≠ rh.length then .throw .invalidArgument
  else omp (mapM (fun y => do
    let a ← vget temperature y
    let b ← vget pressure y
    let c ← vget rh y
    ok (wetbulb a b c)) (upto temperature.length))

/-- `pressure(vec…)` (src/api/pressure.cpp:15-26). -/
def pressureVec [HasExp K] (ielev oelev ipressure itemperature : List (Fl K)) : Res (List (Fl K)) :=
  if oelev.length ≠ ielev.length ∨ ipressure.length ≠ ielev.length ∨ itemperature.length ≠ ielev.length then .throw .invalidArgument
  else omp (mapM (fun i => do
    let a ← vget ielev i
    let b ← vget oelev i
    let c ← vget ipressure i
    let d ← vget itemperature i
    ok (pressure a b c d)) (upto ielev.length))

/-- `sea_level_pressure(vec…)` (src/api/pressure.cpp:82-93). -/
def seaLevelPressureVec [HasExp K] [FloorRing K] (ps altitude temperature rh dewpoint : List (Fl K)) : Res (List (Fl K)) :=
  if altitude.length ≠ ps.length ∨ temperature.length ≠ ps.length ∨ rh.length ≠ ps.length ∨ dewpoint.length ≠ ps.length then
    .throw .invalidArgument
  else omp (mapM (fun i => do
    let a ← vget ps i
    let b ← vget altitude i
    let c ← vget temperature i
    let d ← vget rh i
    let e ← vget dewpoint i
    seaLevelPressure a b c d e) (upto ps.length))

/-- `qnh(vec, vec)` (src/api/qnh.cpp:30-41). -/
def qnhVec [HasExp K] [FloorRing K] (pressure altitude : List (Fl K)) : Res (List (Fl K)) :=
  if pressure.length ≠ altitude.length then .throw .invalidArgument
  else omp (mapM (fun y => do
    let a ← vget pressure y
    let b ← vget altitude y
    ok (qnh a b)) (upto pressure.length))

/-- `wind_speed(vec, vec)` (src/api/wind.cpp:9-19). -/
def windSpeedVec [HasSqrt K] (xwind ywind : List (Fl K)) : Res (List (Fl K)) :=
  if xwind.length ≠ ywind.length then .throw .invalidArgument
  else omp (mapM (fun n => do
    let a ← vget xwind n
    let b ← vget ywind n
    ok (windSpeed a b)) (upto xwind.length))

/-- `wind_direction(vec, vec)` (src/api/wind.cpp:27-37). -/
def windDirectionVec [HasAtan2 K] (xwind ywind : List (Fl K)) : Res (List (Fl K)) :=
  if xwind.length ≠ ywind.length then .throw .invalidArgument
  else omp (mapM (fun n => do
    let a ← vget xwind n
    let b ← vget ywind n
    ok (windDirection a b)) (upto xwind.length))

end Gridpp
