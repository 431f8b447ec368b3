import Verif.Model.Neighbourhood

/-!
# src/api/neighbourhood.cpp: get_neighbourhood_thresholds, neighbourhood_quantile_fast
-/

set_option linter.unusedSectionVars false

namespace Gridpp

open Fl Res

section
variable {K : Type} [Field K] [LinearOrder K] [FloorRing K] [HasSqrt K]

/-- `gridpp::get_neighbourhood_thresholds(const vec2&, int)` (neighbourhood.cpp:243-267). -/
def getNeighbourhoodThresholds (input : List (List (Fl K))) (num : Int) : Res (List (Fl K)) :=
  if num ≤ 0 then throw .invalidArgument
  else match input with
  | [] => ok []
  | row0 :: _ =>
    if row0.length = 0 then ok []
    else do
      let all ← grid2 input.length row0.length fun y x => vget2 input y x
      let sorted ← stdSort (all.flatten.filter isValid)
      calcEvenQuantiles sorted num

/-- Fraction of the valid members that are `<= t`, `MV` if none is valid (neighbourhood.cpp:345-354, 459-470). -/
def fracBelow (t : Fl K) (members : List (Fl K)) : Fl K :=
  let valid := members.filter isValid
  if 0 < valid.length then Fl.ofNat (valid.filter fun v => v.le t).length / Fl.ofNat valid.length else MV

/-- `stats[t]` for every threshold (neighbourhood.cpp:339-358, 453-474). `members y x` are the values read at a cell. -/
def fastStats (rnd : Rnd K) (members : Int → Int → Res (List (Fl K))) (nY nX : Nat) (halfwidth : Int)
    (thresholds : List (Fl K)) : Res (List (List (List (Fl K)))) :=
  omp (mapM (fun t => do
    let temp ← grid2 nY nX fun y x => do
      let m ← members y x
      ok (fracBelow t m)
    neighbourhood rnd temp halfwidth .mean) thresholds)

/-- `yarray[t]` from `stats[t][y][x]`; `none` sets `is_missing` (neighbourhood.cpp:377-393, 493-511). The value is
added `copies` times (once, or `nE` times in the ensemble version) and divided by the count. -/
def fastProb (copies : Nat) (st : Fl K) : Option (Fl K) :=
  let sum := (List.replicate copies st).foldl (fun s v => if v.isValid then s + v else s) 0
  let count := if st.isValid then copies else 0
  if 0 < count then
    let y := sum / Fl.ofNat count
    some (if y.gt 1 then 1 else if y.lt 0 then 0 else y)
  else none

/-- The value written to `output[y][x]` (neighbourhood.cpp:395-402, 513-520). `q1`, `q2`, `q3` are the values of
`curr_quantile` at its three reads; they coincide in a sequential run. -/
def fastCell (thresholds yarray : List (Fl K)) (q1 q2 q3 : Fl K) : Res (Fl K) := do
  let y0 ← vget yarray 0
  let yl ← vget yarray (yarray.length - 1)
  if q1.feq 1 && y0.feq 1 then vget thresholds 0
  else if q2.feq 0 && yl.feq 0 then vget thresholds (thresholds.length - 1)
  else interpolate q3 yarray thresholds

/-- The whole output of one iteration, given the three values read from `curr_quantile`. -/
def fastIter (copies : Nat) (thresholds : List (Fl K)) (stats : List (List (List (Fl K)))) (y x : Int) (q1 q2 q3 : Fl K) :
    Res (Fl K) := do
  let st ← mapM (fun s => vget2 s y x) stats
  let probs := st.map (fastProb copies)
  if probs.any Option.isNone then ok MV
  else fastCell thresholds (probs.filterMap id) q1 q2 q3

/-- `quantile.size() == 1 && quantile[0].size() == 1` (neighbourhood.cpp:312, 360, 428, 476). -/
def levelFixed : List (List (Fl K)) → Bool
  | [[_]] => true
  | _ => false

/-- The size check of the level field: same number of rows, and the first row has `nX` columns
(neighbourhood.cpp:312-316, 428-432); the other rows are not looked at. -/
def levelSameSize (nY nX : Nat) : List (List (Fl K)) → Bool
  | [] => false
  | r :: l => decide ((r :: l).length = nY) && decide (r.length = nX)

/-- Checks and loops shared by both versions of `neighbourhood_quantile_fast` (neighbourhood.cpp:312-408, 428-526), run
sequentially. The interleaved runs are in `Verif/Model/Omp.lean`. -/
def quantileFastCore (rnd : Rnd K) (members : Int → Int → Res (List (Fl K))) (nY nX copies : Nat)
    (quantile : List (List (Fl K))) (halfwidth : Int) (thresholds : List (Fl K)) : Res (List (List (Fl K))) :=
  if !levelFixed quantile && !levelSameSize nY nX quantile then throw .invalidArgument
  else if quantile.any (fun r => r.any fun q => q.isValid && (q.lt 0 || q.gt 1)) then throw .invalidArgument
  else if thresholds.length = 0 then ok (initVec2 nY nX MV)
  else do
    let stats ← fastStats rnd members nY nX halfwidth thresholds
    omp (grid2 nY nX fun y x => do
      let q ← (if levelFixed quantile then vget2 quantile 0 0 else vget2 quantile y x : Res (Fl K))
      fastIter copies thresholds stats y x q q q)

/-- `gridpp::neighbourhood_quantile_fast(const vec2&, const vec2&, int, const vec&)` (neighbourhood.cpp:302-409). -/
def neighbourhoodQuantileFast (rnd : Rnd K) (input : List (List (Fl K))) (quantile : List (List (Fl K))) (halfwidth : Int)
    (thresholds : List (Fl K)) : Res (List (List (Fl K))) :=
  if halfwidth < 0 then throw .invalidArgument
  else match input with
  | [] => ok []
  | row0 :: _ =>
    if row0.length = 0 then ok []
    else quantileFastCore rnd (fun y x => do let v ← vget2 input y x; ok [v]) input.length row0.length 1 quantile halfwidth thresholds

/-- `gridpp::neighbourhood_quantile_fast(const vec3&, const vec2&, int, const vec&)` (neighbourhood.cpp:417-527). -/
def neighbourhoodQuantileFast3 (rnd : Rnd K) (input : List (List (List (Fl K)))) (quantile : List (List (Fl K))) (halfwidth : Int)
    (thresholds : List (Fl K)) : Res (List (List (Fl K))) :=
  if halfwidth < 0 then throw .invalidArgument
  else match input with
  | [] => ok []
  | [] :: _ => ok []
  | (c00 :: r0) :: _ =>
    if c00.length = 0 then ok []
    else
      quantileFastCore rnd (fun y x => do
        let c ← vget2 input y x
        mapM (fun e => vget c e) (upto c00.length)) input.length (c00 :: r0).length c00.length quantile halfwidth thresholds

/-- The overload with one level (neighbourhood.cpp:296-301). -/
def neighbourhoodQuantileFast1 (rnd : Rnd K) (input : List (List (Fl K))) (quantile : Fl K) (halfwidth : Int)
    (thresholds : List (Fl K)) : Res (List (List (Fl K))) :=
  neighbourhoodQuantileFast rnd input [[quantile]] halfwidth thresholds

end
end Gridpp
