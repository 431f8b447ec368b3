import Verif.Model.Nearest
import Verif.Model.Util

/-! Model of downscale_probability.cpp and mask_threshold_downscale_consensus.cpp. -/

set_option linter.unusedSectionVars false

namespace Gridpp
open Fl Res

/-- `gridpp::ComparisonOperator` (include/gridpp.h:138-143); `other` stands for any value outside the enumeration. -/
inductive ComparisonOperator where
  | lt | leq | gt | geq | other
  deriving DecidableEq, Repr

section
variable {K : Type} [Field K] [LinearOrder K] [IsStrictOrderedRing K] [HasGeo K]

/-- The chain of comparisons of a member with the threshold (downscale_probability.cpp:34-50,
mask_threshold_downscale_consensus.cpp:47-75). `none` if no branch is taken; the threshold is only read in the branches. -/
def compareM (op : ComparisonOperator) (v : Fl K) (threshold : Res (Fl K)) : Res (Option Bool) :=
  match op with
  | .leq => do
    let t ← threshold
    ok (some (v.le t))
  | .lt => do
    let t ← threshold
    ok (some (v.lt t))
  | .geq => do
    let t ← threshold
    ok (some (v.ge t))
  | .gt => do
    let t ← threshold
    ok (some (v.gt t))
  | .other => ok none

/-- One iteration of the loop over members (downscale_probability.cpp:31-52); the state is (count, total). -/
def probabilityStep (op : ComparisonOperator) (members : Res (List (Fl K))) (threshold : Res (Fl K)) (s : Nat × Nat) (k : Int) : Res (Nat × Nat) := do
  let m ← members
  let v ← vget m k
  if v.isValid then do
    let b ← compareM op v threshold
    ok (s.1 + 1, if b = some true then s.2 + 1 else s.2)
  else ok s

/-- The loop over members and the division (downscale_probability.cpp:29-64). -/
def probabilityCell (op : ComparisonOperator) (members : Res (List (Fl K))) (threshold : Res (Fl K)) (nEns : Nat) : Res (Fl K) := do
  let s ← foldM (probabilityStep op members threshold) (0, 0) (upto nEns)
  ok (if s.1 = 0 then MV else Fl.ofNat s.2 / Fl.ofNat s.1)

/-- `gridpp::downscale_probability` (downscale_probability.cpp:7-70). Sizes are not checked. -/
def downscaleProbability (T : RTree K) (igrid ogrid : Grid K) (iv : List (List (List (Fl K)))) (threshold : List (List (Fl K)))
    (op : ComparisonOperator) : Res (List (List (Fl K))) := do
  let row0 ← vget ogrid.lats 0
  let cell0 ← vget2 iv 0 0
  omp (grid2 ogrid.lats.length row0.length fun i j => do
    let la ← vget2 ogrid.lats i j
    let lo ← vget2 ogrid.lons i j
    let c ← nearestCell T igrid la lo
    probabilityCell op (vget2 iv c.1 c.2) (vget2 threshold i j) cell0.length)

/-- One iteration of the loop over members (mask_threshold_downscale_consensus.cpp:45-78). -/
def maskStep (op : ComparisonOperator) (tv ivTrue ivFalse : Res (List (Fl K))) (threshold : Res (Fl K)) (k : Int) : Res (Fl K) := do
  let t ← tv
  let v ← vget t k
  if v.isValid then do
    let b ← compareM op v threshold
    match b with
    | none => ok MV
    | some true => do
      let m ← ivTrue
      vget m k
    | some false => do
      let m ← ivFalse
      vget m k
  else ok MV

/-- `mask_threshold_downscale` (mask_threshold_downscale_consensus.cpp:19-89) with the statistic as a function of the masked
values (mask_threshold_downscale_consensus.cpp:80-85). -/
def maskThresholdWith (stat : List (Fl K) → Res (Fl K)) (T : RTree K) (igrid ogrid : Grid K) (ivTrue ivFalse tv : List (List (List (Fl K))))
    (threshold : List (List (Fl K))) (op : ComparisonOperator) : Res (List (List (Fl K))) := do
  let row0 ← vget ogrid.lats 0
  let cell0 ← vget2 ivTrue 0 0
  omp (grid2 ogrid.lats.length row0.length fun i j => do
    let la ← vget2 ogrid.lats i j
    let lo ← vget2 ogrid.lons i j
    let c ← nearestCell T igrid la lo
    let masked ← mapM (maskStep op (vget2 tv c.1 c.2) (vget2 ivTrue c.1 c.2) (vget2 ivFalse c.1 c.2) (vget2 threshold i j)) (upto cell0.length)
    stat masked)

/-- The choice of the statistic (mask_threshold_downscale_consensus.cpp:80-85). -/
def maskStatistic [FloorRing K] [HasSqrt K] (rnd : Rnd K) (s : Statistic) (quantile : Fl K) (masked : List (Fl K)) : Res (Fl K) :=
  if s = .quantile then calcQuantile masked quantile else calcStatistic rnd masked s

/-- `gridpp::mask_threshold_downscale_consensus` (mask_threshold_downscale_consensus.cpp:11-13). -/
def maskThresholdDownscaleConsensus [FloorRing K] [HasSqrt K] (rnd : Rnd K) (T : RTree K) (igrid ogrid : Grid K)
    (ivTrue ivFalse tv : List (List (List (Fl K)))) (threshold : List (List (Fl K))) (op : ComparisonOperator) (s : Statistic) :
    Res (List (List (Fl K))) :=
  maskThresholdWith (maskStatistic rnd s (fin 0)) T igrid ogrid ivTrue ivFalse tv threshold op

/-- `gridpp::mask_threshold_downscale_quantile` (mask_threshold_downscale_consensus.cpp:14-16). -/
def maskThresholdDownscaleQuantile [FloorRing K] [HasSqrt K] (rnd : Rnd K) (T : RTree K) (igrid ogrid : Grid K)
    (ivTrue ivFalse tv : List (List (List (Fl K)))) (threshold : List (List (Fl K))) (op : ComparisonOperator) (quantile : Fl K) :
    Res (List (List (Fl K))) :=
  maskThresholdWith (maskStatistic rnd .quantile quantile) T igrid ogrid ivTrue ivFalse tv threshold op

end
end Gridpp
