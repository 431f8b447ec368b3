import Verif.Model.Client.Calibrators
import Verif.Base.Pow

/-!
# src/client/Calibrator/WindDirection.cpp and src/client/Calibrator/Qnh.cpp

The parameter file is a function that gives the parameters of a time and grid point, see Model/Client/ParameterFile.lean. The fields of
the direction and the pressure are functions of time; they may be the field that is changed, since every value is read where it is
replaced, and before.
-/

set_option linter.unusedSectionVars false

namespace Gridpp.Client
open Fl Res

variable {K : Type} [Field K] [LinearOrder K]

/-- `sin` and `cos` of <math.h> on finite values. -/
class HasTrigC (K : Type) where
  sin : K → K
  cos : K → K

/-- `sin(x)`. -/
def sinC [HasTrigC K] : Fl K → Fl K
  | fin q => fin (HasTrigC.sin q)
  | _ => nan

/-- `cos(x)`. -/
def cosC [HasTrigC K] : Fl K → Fl K
  | fin q => fin (HasTrigC.cos q)
  | _ => nan

/-- `Util::deg2rad` (src/client/Util.cpp:140-142), with `Util::pi` (line 37). -/
def deg2radC (deg : Fl K) : Fl K := deg * fin (314159265 / 100000000) / fin 180

/-- `Parameters::operator[]` (src/client/Parameters.cpp:29-37). -/
def parAt (p : List (Fl K)) (i : Nat) : Res (Fl K) := if p.length ≤ i then error else vget p i

/-- `CalibratorWindDirection::getFactor` (src/client/Calibrator/WindDirection.cpp:72-89). -/
def windFactor [HasTrigC K] (direction : Fl K) (p : List (Fl K)) : Res (Fl K) :=
  if !isValid direction || !p.all isValid then ok MV
  else do
    let dir := deg2radC direction
    let p0 ← parAt p 0
    let p1 ← parAt p 1
    let p2 ← parAt p 2
    let p3 ← parAt p 3
    let p4 ← parAt p 4
    let p5 ← parAt p 5
    let p6 ← parAt p 6
    let p7 ← parAt p 7
    let p8 ← parAt p 8
    let factor := p0 + p1 * sinC dir + p2 * cosC dir + p3 * sinC (fin 2 * dir) + p4 * cosC (fin 2 * dir) + p5 * sinC (fin 3 * dir) +
      p6 * cosC (fin 3 * dir) + p7 * sinC (fin 4 * dir) + p8 * cosC (fin 4 * dir)
    ok (if factor.lt 0 then 0 else factor)

/-- One member (src/client/Calibrator/WindDirection.cpp:46-50). -/
def windMember [HasTrigC K] (direction : FieldC K) (p : List (Fl K)) (f : FieldC K) (y x e : Nat) : Res (FieldC K) := do
  let curr ← direction.get y x e
  if isValid curr then do
    let factor ← windFactor curr p
    let wind ← f.get y x e
    f.set y x e (factor * wind)
  else ok f

/-- `CalibratorWindDirection::calibrateCore` (src/client/Calibrator/WindDirection.cpp:15-56). -/
def windDirectionC [HasTrigC K] (Y X E : Nat) (numParameters : Int) (directions : Nat → FieldC K) (params : Nat → Nat → Nat → List (Fl K))
    (fields : List (FieldC K)) : Res (List (FieldC K)) :=
  if numParameters ≠ 9 then error
  else eachTime (fun t => FieldC.forAll Y X E fun f y x e => windMember (directions t) (params t y x) f y x e) fields

/-- `CalibratorQnh::calcQnh` (src/client/Calibrator/Qnh.cpp:48-72). -/
def calcQnh [FloorRing K] [HasExp K] (elev pressure : Fl K) : Fl K :=
  if feq pressure (fin 0) then fin 0
  else if isValid elev && isValid pressure then
    fin 101325 * Fl.pow
      (Fl.pow (pressure / fin 101325) ((fin (287053 / 1000) * fin (65 / 10000)) / fin (980665 / 100000)) +
        (elev * fin (65 / 10000)) / fin (28815 / 100))
      (fin (980665 / 100000) / (fin (287053 / 1000) * fin (65 / 10000)))
  else MV

/-- One member (src/client/Calibrator/Qnh.cpp:28-33). -/
def qnhMember [FloorRing K] [HasExp K] (elevs : List (List (Fl K))) (input f : FieldC K) (y x e : Nat) : Res (FieldC K) := do
  let elev ← vget2 elevs y x
  let pressure ← input.get y x e
  if isValid pressure && isValid elev then f.set y x e (calcQnh elev pressure) else ok f

/-- `CalibratorQnh::calibrateCore` (src/client/Calibrator/Qnh.cpp:10-39). -/
def qnhC [FloorRing K] [HasExp K] (Y X E : Nat) (elevs : List (List (Fl K))) (inputs : Nat → FieldC K) (fields : List (FieldC K)) :
    Res (List (FieldC K)) :=
  eachTime (fun t => FieldC.forAll Y X E fun f y x e => qnhMember elevs (inputs t) f y x e) fields

end Gridpp.Client
