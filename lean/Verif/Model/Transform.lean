import Verif.Base.Pow
import Verif.Base.Res

/-! # Transforms (src/api/transform.cpp) -/

set_option linter.unusedSectionVars false

namespace Gridpp
open Fl Res

/-- A distribution of boost::math (external): cumulative distribution function and quantile function, which may throw. -/
structure Dist (K : Type) where
  cdf : Fl K → Res (Fl K)
  quantile : Fl K → Res (Fl K)

/-- The class `Transform` and its subclasses (include/gridpp.h:2345-2455). `base` is the base class itself, which is not
abstract. -/
inductive Transform (K : Type) where
  | base
  | identity
  | log
  | boxCox (threshold : Fl K)
  | started (threshold scaling : Fl K)
  | gamma (gammaDist normDist : Dist K) (tolerance : Fl K)

variable {K : Type} [Field K] [LinearOrder K]

/-- The constructor of `StartedBoxCox` (src/api/transform.cpp:126-132). -/
def Transform.newStarted (threshold scaling : Fl K) : Res (Transform K) :=
  if !isValid threshold || le threshold (fin 0) then .throw .invalidArgument
  else if !isValid scaling || le scaling (fin 0) then .throw .invalidArgument
  else ok (.started threshold scaling)

/-- The constructor of `Gamma` (src/api/transform.cpp:155-165); `mk` is the constructor of
`boost::math::gamma_distribution`. -/
def Transform.newGamma (mk : Fl K → Fl K → Dist K) (norm : Dist K) (shape scale tolerance : Fl K) : Res (Transform K) :=
  if !isValid shape || le shape (fin 0) then .throw .invalidArgument
  else if !isValid scale || le scale (fin 0) then .throw .invalidArgument
  else if !isValid tolerance || lt tolerance (fin 0) then .throw .invalidArgument
  else ok (.gamma (mk shape scale) norm tolerance)

variable [FloorRing K] [HasExp K]

/-- `Log::forward` (src/api/transform.cpp:85-90). -/
def logForward (value : Fl K) : Fl K := if isValid value then Fl.log value else MV

/-- `Log::backward` (src/api/transform.cpp:91-96). -/
def logBackward (value : Fl K) : Fl K := if isValid value then Fl.exp value else MV

/-- `BoxCox::forward` (src/api/transform.cpp:100-109) for a value that is not negative. -/
def boxCoxOf (threshold value : Fl K) : Fl K :=
  if feq threshold (fin 0) then Fl.log value else (Fl.pow value threshold - fin 1) / threshold

/-- `BoxCox::forward` (src/api/transform.cpp:100-109). -/
def boxCoxForward (threshold value : Fl K) : Fl K :=
  if !isValid value then MV
  else boxCoxOf threshold (if le value (fin 0) then fin 0 else value)

/-- `BoxCox::backward` before the last check (src/api/transform.cpp:113-121). -/
def boxCoxInverse (threshold value : Fl K) : Fl K :=
  if feq threshold (fin 0) then Fl.exp value
  else Fl.pow (fin 1 + threshold * (if lt value (fin (-1) / threshold) then fin (-1) / threshold else value)) (fin 1 / threshold)

/-- `BoxCox::backward` (src/api/transform.cpp:110-125). -/
def boxCoxBackward (threshold value : Fl K) : Fl K :=
  if !isValid value then MV
  else if le (boxCoxInverse threshold value) (fin 0) then fin 0 else boxCoxInverse threshold value

/-- `StartedBoxCox::forward` (src/api/transform.cpp:133-142) for a value that is not negative. -/
def startedOf (threshold scaling value : Fl K) : Fl K :=
  if le value scaling then value
  else scaling * (fin 1 + (Fl.pow (value / scaling) threshold - fin 1) / threshold)

/-- `StartedBoxCox::forward` (src/api/transform.cpp:133-142). -/
def startedForward (threshold scaling value : Fl K) : Fl K :=
  if !isValid value || le threshold (fin 0) then MV
  else startedOf threshold scaling (if lt value (fin 0) then fin 0 else value)

/-- `StartedBoxCox::backward` before the last check (src/api/transform.cpp:146-150). -/
def startedInverse (threshold scaling value : Fl K) : Fl K :=
  if le value scaling then value
  else scaling * Fl.pow (fin 1 + threshold / scaling * (value - scaling)) (fin 1 / threshold)

/-- `StartedBoxCox::backward` (src/api/transform.cpp:143-154). -/
def startedBackward (threshold scaling value : Fl K) : Fl K :=
  if !isValid value || le threshold (fin 0) then MV
  else if lt (startedInverse threshold scaling value) (fin 0) then fin 0 else startedInverse threshold scaling value

/-- `Gamma::forward` (src/api/transform.cpp:166-172). -/
def gammaForward (gammaDist normDist : Dist K) (tolerance value : Fl K) : Res (Fl K) :=
  if !isValid value then ok MV
  else do
    let p ← gammaDist.cdf (value + tolerance)
    normDist.quantile p

/-- `Gamma::backward` (src/api/transform.cpp:173-179). -/
def gammaBackward (gammaDist normDist : Dist K) (tolerance value : Fl K) : Res (Fl K) :=
  if !isValid value then ok MV
  else do
    let p ← normDist.cdf value
    let r ← gammaDist.quantile p
    ok (r - tolerance)

/-- `forward(float)` of the transforms (src/api/transform.cpp:7-9, 85-90, 100-109, 133-142, 166-172, 180-182). -/
def Transform.forward : Transform K → Fl K → Res (Fl K)
  | base, _ => ok (fin (-1))
  | identity, v => ok v
  | log, v => ok (logForward v)
  | boxCox t, v => ok (boxCoxForward t v)
  | started t s, v => ok (startedForward t s v)
  | gamma g n tol, v => gammaForward g n tol v

/-- `backward(float)` of the transforms (src/api/transform.cpp:10-12, 91-96, 110-125, 143-154, 173-179, 183-185). -/
def Transform.backward : Transform K → Fl K → Res (Fl K)
  | base, _ => ok (fin (-1))
  | identity, v => ok v
  | log, v => ok (logBackward v)
  | boxCox t, v => ok (boxCoxBackward t v)
  | started t s, v => ok (startedBackward t s v)
  | gamma g n tol, v => gammaBackward g n tol v

/-- `Transform::forward(vec)` (src/api/transform.cpp:13-20). -/
def Transform.forward1 (t : Transform K) (input : List (Fl K)) : Res (List (Fl K)) :=
  mapM (fun i => do
    let v ← vget input i
    t.forward v) (upto input.length)

/-- `Transform::forward(vec2)` (src/api/transform.cpp:21-32); each row has its own size. -/
def Transform.forward2 (t : Transform K) (input : List (List (Fl K))) : Res (List (List (Fl K))) :=
  mapM (fun y => do
    let row ← vget input y
    t.forward1 row) (upto input.length)

/-- `Transform::forward(vec3)` (src/api/transform.cpp:33-48). -/
def Transform.forward3 (t : Transform K) (input : List (List (List (Fl K)))) : Res (List (List (List (Fl K)))) :=
  mapM (fun y => do
    let a ← vget input y
    t.forward2 a) (upto input.length)

/-- `Transform::backward(vec)` (src/api/transform.cpp:49-56). -/
def Transform.backward1 (t : Transform K) (input : List (Fl K)) : Res (List (Fl K)) :=
  mapM (fun i => do
    let v ← vget input i
    t.backward v) (upto input.length)

/-- `Transform::backward(vec2)` (src/api/transform.cpp:57-68). -/
def Transform.backward2 (t : Transform K) (input : List (List (Fl K))) : Res (List (List (Fl K))) :=
  mapM (fun y => do
    let row ← vget input y
    t.backward1 row) (upto input.length)

/-- `Transform::backward(vec3)` (src/api/transform.cpp:69-84). -/
def Transform.backward3 (t : Transform K) (input : List (List (List (Fl K)))) : Res (List (List (List (Fl K)))) :=
  mapM (fun y => do
    let a ← vget input y
    t.backward2 a) (upto input.length)

end Gridpp
