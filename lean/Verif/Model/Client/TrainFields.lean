import Verif.Model.Client.Downscaler

/-! # src/client/Calibrator/Calibrator.cpp: training from fields -/

set_option linter.unusedSectionVars false

namespace Gridpp.Client
open Fl Res

variable {K : Type} [Field K] [LinearOrder K]

/-- `field(I, J)` with `int` arguments (src/client/Field.cpp:16-19): a negative number becomes a large `unsigned`, which fails the
`assert` of `Field::getIndex`. -/
def FieldC.ensInt (f : FieldC K) (I J : Int) : Res (List (Fl K)) := if I < 0 ∨ J < 0 then .abort else f.ens I.toNat J.toNat

/-- `Calibrator::train` of a method that has none (src/client/Calibrator/Calibrator.cpp:132-135). -/
def trainNone (_ : List (Fl K × List (Fl K))) : Res (List (Fl K)) := error

/-- The loop over the cases (src/client/Calibrator/Calibrator.cpp:139-146). -/
def trainArrange (obsAt ensAt : Int × Int) (data : List (FieldC K × FieldC K)) : Res (List (Fl K × List (Fl K))) :=
  mapM (fun d : FieldC K × FieldC K => do
    let obs ← d.1.getInt obsAt.1 obsAt.2 0
    let ens ← d.2.ensInt ensAt.1 ensAt.2
    ok (obs, ens)) data

/-- `Calibrator::train` from fields (src/client/Calibrator/Calibrator.cpp:137-150); `train` is the one of the method. The grids are not used. -/
def trainFields (train : List (Fl K × List (Fl K)) → Res (List (Fl K))) (obsAt ensAt : Int × Int) (data : List (FieldC K × FieldC K)) :
    Res (List (Fl K)) := do
  let pairs ← trainArrange obsAt ensAt data
  train pairs

end Gridpp.Client
