import Verif.Model.OI
import Verif.Model.Fill

/-! Model of `src/api/corr_points.cpp`: `staticcorr_points`. -/

namespace Gridpp
open Fl Res

section
variable {K : Type} [Field K] [LinearOrder K] [IsStrictOrderedRing K]

/-- The knots with positive correlation (corr_points.cpp:89-94). As in Model/OI.lean the pairs hold the number of the knot
instead of its position among the neighbours. -/
def positiveRhos (idx : List Nat) (rhos : List (Fl K)) : Res (List (Fl K × Nat)) := do
  let r ← mapM (fun k : Nat => do
    let index ← vget idx (k : Int)
    let r ← vget rhos (k : Int)
    ok (if r.gt 0 then some (r, index) else none)) (List.range idx.length)
  ok (r.filterMap id)

/-- One row of the output (corr_points.cpp:64-126); the row starts as zeros (43). `oiSelect` (98-118) is the same code as in
`oi.cpp`. -/
def staticcorrRow [HasGeo K] [HasSqrt K] [HasExp K] (T : RTree K) (A : Arma K) (points knots : Points K) (pts : List (Point K))
    (s : SF K) (maxPoints : Int) (y : Nat) : Res (List (Fl K)) := do
  let lat ← vget points.lats (y : Int)
  let lon ← vget points.lons (y : Int)
  let p1 ← points.getPoint (y : Int)
  let radius ← s.locDist T p1
  let idx ← knots.getNeighbours T lat lon radius true
  if idx.length = 0 then ok (List.replicate knots.size 0)
  else do
    let p2 ← mapM (fun i : Nat => vget pts (i : Int)) idx
    let rhos ← s.corrBgVec T p1 p2
    let u ← positiveRhos idx rhos
    foldM (fun (row : List (Fl K)) (e : Fl K × Nat) => vset row (e.2 : Int) e.1) (List.replicate knots.size 0) (oiSelect A maxPoints u)

/-- `staticcorr_points` (corr_points.cpp:26-131). The iterations of the parallel loop write separate rows. -/
def staticcorrPoints [HasGeo K] [HasSqrt K] [HasExp K] (T : RTree K) (A : Arma K) (points knots : Points K) (s : SF K)
    (maxPoints : Int) : Res (List (List (Fl K))) :=
  if maxPoints < 0 then throw .invalidArgument
  else if points.type ≠ knots.type then throw .invalidArgument
  else do
    let pts ← mapM (fun i : Nat => knots.getPoint (i : Int)) (List.range knots.size)
    Res.omp (mapM (staticcorrRow T A points knots pts s maxPoints) (List.range points.size))

end
end Gridpp
