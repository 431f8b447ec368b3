import Verif.Model.Transform
import Verif.Model.QuantileFast

/-! # src/api/distribution.cpp: gamma_inv; src/api/neighbourhood.cpp: get_neighbourhood_thresholds for ensembles -/

set_option linter.unusedSectionVars false

namespace Gridpp
open Fl Res

variable {K : Type} [Field K] [LinearOrder K]

/-- The checks of one set of arguments (src/api/distribution.cpp:8-22), in the order of the code. -/
def gammaInvCheck (level shape scale : Fl K) : Res Unit :=
  if lt level (fin 0) || gt level (fin 1) || !isValid level then throw .invalidArgument
  else if le shape (fin 0) || !isValid shape then throw .invalidArgument
  else if le scale (fin 0) || !isValid scale then throw .invalidArgument
  else ok ()

/-- `gridpp::gamma_inv` (src/api/distribution.cpp:5-33); `mk` is `boost::math::gamma_distribution` (external). The number
of values is that of `shape`; the sizes of the other vectors are not checked. -/
def gammaInv (mk : Fl K → Fl K → Dist K) (levels shape scale : List (Fl K)) : Res (List (Fl K)) := do
  let _ ← mapM (fun i : Nat => do
    let l ← vget levels i
    let a ← vget shape i
    let s ← vget scale i
    gammaInvCheck l a s) (List.range shape.length)
  omp (mapM (fun i : Nat => do
    let a ← vget shape i
    let s ← vget scale i
    let l ← vget levels i
    (mk a s).quantile l) (List.range shape.length))

variable [FloorRing K] [HasSqrt K]

/-- `gridpp::get_neighbourhood_thresholds(const vec3&, int)` (neighbourhood.cpp:268-295). -/
def getNeighbourhoodThresholds3 (input : List (List (List (Fl K)))) (num : Int) : Res (List (Fl K)) :=
  if num ≤ 0 then throw .invalidArgument
  else match input with
  | [] => ok []
  | [] :: _ => ok []
  | (cell0 :: row0) :: _ =>
    if cell0.length = 0 then ok []
    else do
      let all ← grid2 input.length (cell0 :: row0).length fun y x => do
        let c ← vget2 input y x
        mapM (fun e : Nat => vget c e) (List.range cell0.length)
      let sorted ← stdSort (all.flatten.flatten.filter isValid)
      calcEvenQuantiles sorted num

end Gridpp
