import Verif.Model.Client.Gradient
import Verif.Model.Client.Bilinear

/-! # src/client/Downscaler/Gradient.cpp with `downscaler=bilinear` -/

set_option linter.unusedSectionVars false

namespace Gridpp.Client
open Fl Res

variable {K : Type} [Field K] [LinearOrder K]

/-- One time step with `downscaler=bilinear` (src/client/Downscaler/Gradient.cpp:90-93, 95-96, 102-215). `fall` is the end of a `bool` function without
return in `DownscalerBilinear` (`Model/Client/Bilinear.lean`). -/
def gradientFieldBilinear [HasExp K] [HasSqrt K] (fall : Res Unit) (o : GradientOptions K) (near : List (List (Int × Int)))
    (ilats ilons ielevs ilafs olats olons oelevs olafs : List (List (Fl K))) (minAllowed maxAllowed : Fl K) (ifield gfield ofield : FieldC K) :
    Res (FieldC K) := do
  let elevsInterp ← bilinearVec fall ielevs ilats ilons olats olons near
  let lafsInterp ← bilinearVec fall ilafs ilats ilons olats olons near
  let base ← bilinearField fall ilats ilons olats olons near ifield ofield
  gradientLoop o ⟨ielevs, ilafs, oelevs, olafs, elevsInterp, lafsInterp, ifield, gfield, minAllowed, maxAllowed⟩ near base

/-- `DownscalerGradient::downscaleCore` (src/client/Downscaler/Gradient.cpp:67-216) with `downscaler=bilinear`. -/
def gradientCoreBilinear [HasArcC K] [HasExp K] [HasSqrt K] (fall : Res Unit) (sort : Bool → List (Site K) → List (Site K)) (o : GradientOptions K)
    (ilats ilons ielevs ilafs olats olons oelevs olafs : List (List (Fl K))) (minAllowed maxAllowed : Fl K)
    (ifields gfields ofields : List (FieldC K)) : Res (List (FieldC K)) := do
  let near ← treeGrid sort ilats ilons olats olons
  mapM (fun t : Nat => do
    let ifield ← vget ifields t
    let ofield ← vget ofields t
    let gfield ← vget gfields t
    gradientFieldBilinear fall o near ilats ilons ielevs ilafs olats olons oelevs olafs minAllowed maxAllowed ifield gfield ofield) (List.range ifields.length)

end Gridpp.Client
