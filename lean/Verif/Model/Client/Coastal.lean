import Verif.Model.Client.WindDirection
import Verif.Model.Client.Stencil

/-!
# src/client/Calibrator/Coastal.cpp

The values of a field are replaced while the values around them are still being read. The rows are shared out among threads, so the order of
the grid points is not fixed; it is an argument here. A grid point is handled as a whole, without the others in between: two threads that
read and write one value at the same time would be a data race, which is not modelled. The training is in CoastalTrain.lean.
-/

set_option linter.unusedSectionVars false

namespace Gridpp.Client
open Fl Res

variable {K : Type} [Field K] [LinearOrder K]

/-- `lowerValue, upperValue, minLaf, maxLaf`. -/
structure CoastState (K : Type) where
  lower : Fl K
  upper : Fl K
  minLaf : Fl K
  maxLaf : Fl K

/-- One grid point around (src/client/Calibrator/Coastal.cpp:59-67). -/
def coastUpdate (s : CoastState K) (laf value : Fl K) : CoastState K :=
  let s1 := if laf.lt s.minLaf then { s with lower := value, minLaf := laf } else s
  if laf.gt s1.maxLaf then { s1 with upper := value, maxLaf := laf } else s1

/-- The loops over the grid points around (src/client/Calibrator/Coastal.cpp:51-69). The value is only read if it is used in the code; it
exists in any case, since the sizes are those of the field. -/
def coastLoop (nY nX : Nat) (radius : Int) (lafs : List (List (Fl K))) (f : FieldC K) (e : Nat) (c : Int × Int) : Res (CoastState K) :=
  foldM (fun s (p : Int × Int) => do
    let laf ← vget2 lafs p.1 p.2
    let value ← f.getInt p.1 p.2 e
    ok (coastUpdate s laf value)) ⟨MV, MV, fin 2, fin (-1)⟩ (stencil nY nX radius c)

/-- `gradient` (src/client/Calibrator/Coastal.cpp:76-78). -/
def coastGradient (minLafDiff : Fl K) (s : CoastState K) : Fl K :=
  if isValid s.lower && isValid s.upper && (s.maxLaf - s.minLaf).gt minLafDiff then (s.upper - s.lower) / (s.maxLaf - s.minLaf) else 0

/-- One member (src/client/Calibrator/Coastal.cpp:51-88). -/
def coastMember (nY nX : Nat) (radius : Int) (minLafDiff : Fl K) (useNN : Bool) (lafs : List (List (Fl K))) (params : List (Fl K))
    (f : FieldC K) (y x e : Nat) : Res (FieldC K) := do
  let nearest ← f.get y x e
  let s ← coastLoop nY nX radius lafs f e ((y : Int), (x : Int))
  let a ← parAt params 0
  let b ← parAt params 1
  let c ← parAt params 2
  assert (isValid (coastGradient minLafDiff s))
  assert (isValid nearest)
  let value := a + b * (if useNN then nearest else s.lower) + c * coastGradient minLafDiff s
  assert (isValid value)
  f.set y x e value

/-- One time (src/client/Calibrator/Coastal.cpp:42-91), with the grid points in the given order. -/
def coastField (order : List (Nat × Nat)) (Y X E : Nat) (radius : Int) (minLafDiff : Fl K) (useNN : Bool) (lafs : List (List (Fl K)))
    (params : Nat → Nat → List (Fl K)) (f : FieldC K) : Res (FieldC K) :=
  foldM (fun f (c : Nat × Nat) =>
    foldM (fun f e => coastMember Y X radius minLafDiff useNN lafs (params c.1 c.2) f c.1 c.2 e) f (List.range E)) f order

/-- `CalibratorCoastal::calibrateCore` (src/client/Calibrator/Coastal.cpp:18-94). -/
def coastal (order : Nat → List (Nat × Nat)) (Y X E : Nat) (radius : Int) (minLafDiff : Fl K) (useNN : Bool) (numParameters : Int)
    (locationDependent : Bool) (lafs : List (List (Fl K))) (params : Nat → Nat → Nat → List (Fl K)) (fields : List (FieldC K)) :
    Res (List (FieldC K)) :=
  if numParameters = 0 then error
  else if !locationDependent then error
  else eachTime (fun t => coastField (order t) Y X E radius minLafDiff useNN lafs (params t)) fields

end Gridpp.Client
