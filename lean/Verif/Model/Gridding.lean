import Verif.Model.Nearest
import Verif.Model.Fill

/-!
Model of gridding.cpp, count.cpp, distance.cpp and of `KDTree::calc_distance`.

Two loops of gridding.cpp (49, 123) stand under `#pragma omp parallel` without `for`: every thread runs the whole loop and
all write the same values. Modelled as one execution of the loop (exact for a deterministic statistic).
-/

set_option linter.unusedSectionVars false

namespace Gridpp
open Fl Res

section
variable {K : Type} [Field K] [LinearOrder K] [IsStrictOrderedRing K] [HasGeo K]

/-- One output location of `gridding` (gridding.cpp:24-31, 51-58). The comparison `I.size() >= min_num` is unsigned, but is
only reached with `min_num > 0`. -/
def griddingAt [FloorRing K] [HasSqrt K] (T : RTree K) (rnd : Rnd K) (points : Points K) (values : List (Fl K)) (radius : Fl K)
    (minNum : Int) (s : Statistic) (lat lon : Fl K) : Res (Fl K) := do
  let I ← points.getNeighbours T lat lon radius true
  if minNum ≤ 0 ∨ (I.length : Int) ≥ minNum then do
    let curr ← mapM (fun i : Nat => vget values (i : Int)) I
    calcStatistic rnd curr s
  else ok MV

/-- The argument checks of `gridding` (gridding.cpp:7-12, 37-42). `is_valid(min_num)` of an int is always true. -/
def griddingChecks (points : Points K) (values : List (Fl K)) (radius : Fl K) (minNum : Int) : Res Unit :=
  if compatibleSizeP1 points values = false then throw .invalidArgument
  else if radius.isValid = false ∨ radius.lt 0 = true then throw .invalidArgument
  else if minNum < 0 then throw .invalidArgument
  else ok ()

/-- `gridpp::gridding(const Grid&, ...)` (gridding.cpp:6-35). -/
def griddingG [FloorRing K] [HasSqrt K] (T : RTree K) (rnd : Rnd K) (grid : Grid K) (points : Points K) (values : List (Fl K))
    (radius : Fl K) (minNum : Int) (s : Statistic) : Res (List (List (Fl K))) := do
  griddingChecks points values radius minNum
  let sz ← grid.size
  omp (grid2 sz.1 sz.2 fun y x => do
    let la ← vget2 grid.lats y x
    let lo ← vget2 grid.lons y x
    griddingAt T rnd points values radius minNum s la lo)

/-- `gridpp::gridding(const Points&, ...)` (gridding.cpp:36-61). -/
def griddingP [FloorRing K] [HasSqrt K] (T : RTree K) (rnd : Rnd K) (opoints ipoints : Points K) (values : List (Fl K))
    (radius : Fl K) (minNum : Int) (s : Statistic) : Res (List (Fl K)) := do
  griddingChecks ipoints values radius minNum
  omp (mapM (fun n : Int => do
    let la ← vget opoints.lats n
    let lo ← vget opoints.lons n
    griddingAt T rnd ipoints values radius minNum s la lo) (upto opoints.lats.length))

/-- The argument checks of `gridding_nearest` (gridding.cpp:64-67, 102-105). -/
def griddingNearestChecks (points : Points K) (values : List (Fl K)) (minNum : Int) : Res Unit :=
  if compatibleSizeP1 points values = false then throw .invalidArgument
  else if minNum < 0 then throw .invalidArgument
  else ok ()

/-- `v[i]` replaced by `f v[i]`; outside: undefined. -/
def vmodify {α : Type} (v : List α) (i : Int) (f : α → α) : Res (List α) := do
  let a ← vget v i
  vset v i (f a)

/-- `temp[iY][iX].push_back(v)` (gridding.cpp:86). -/
def push2 {α : Type} (temp : List (List (List α))) (y x : Int) (v : α) : Res (List (List (List α))) := do
  let a ← vget2 temp y x
  vset2 temp y x (a ++ [v])

/-- `temp[index].push_back(v)` (gridding.cpp:117). -/
def push1 {α : Type} (temp : List (List α)) (i : Int) (v : α) : Res (List (List α)) := vmodify temp i fun a => a ++ [v]

/-- One output location (gridding.cpp:92-95, 125-128). -/
def griddingNearestAt [FloorRing K] [HasSqrt K] (rnd : Rnd K) (minNum : Int) (s : Statistic) (curr : List (Fl K)) : Res (Fl K) :=
  if 0 < curr.length then
    if minNum ≤ 0 ∨ (curr.length : Int) ≥ minNum then calcStatistic rnd curr s else ok MV
  else ok MV

/-- The assignment loop of `gridding_nearest` to grid cells (gridding.cpp:82-87). The elements of the returned vector are
read without a check (`nearestCell`). -/
def assignCells (T : RTree K) (grid : Grid K) (ipoints : Points K) (values : List (Fl K)) (Y X : Nat) :
    Res (List (List (List (Fl K)))) :=
  foldM (fun temp (s : Int) => do
    let la ← vget ipoints.lats s
    let lo ← vget ipoints.lons s
    let c ← nearestCell T grid la lo
    let v ← vget values s
    push2 temp c.1 c.2 v) (initVec2 Y X []) (upto values.length)

/-- `gridpp::gridding_nearest(const Grid&, ...)` (gridding.cpp:63-100). -/
def griddingNearestG [FloorRing K] [HasSqrt K] (T : RTree K) (rnd : Rnd K) (grid : Grid K) (ipoints : Points K) (values : List (Fl K))
    (minNum : Int) (s : Statistic) : Res (List (List (Fl K))) := do
  griddingNearestChecks ipoints values minNum
  let sz ← grid.size
  let temp ← assignCells T grid ipoints values sz.1 sz.2
  omp (grid2 sz.1 sz.2 fun y x => do
    let curr ← vget2 temp y x
    griddingNearestAt rnd minNum s curr)

/-- The assignment loop of `gridding_nearest` to points (gridding.cpp:114-118). Without output points the index is -1. -/
def assignPoints (T : RTree K) (opoints ipoints : Points K) (values : List (Fl K)) : Res (List (List (Fl K))) :=
  foldM (fun temp (s : Int) => do
    let la ← vget ipoints.lats s
    let lo ← vget ipoints.lons s
    let i ← opoints.getNearestNeighbour T la lo true
    let v ← vget values s
    push1 temp i v) (List.replicate opoints.size []) (upto values.length)

/-- `gridpp::gridding_nearest(const Points&, ...)` (gridding.cpp:101-131). -/
def griddingNearestP [FloorRing K] [HasSqrt K] (T : RTree K) (rnd : Rnd K) (opoints ipoints : Points K) (values : List (Fl K))
    (minNum : Int) (s : Statistic) : Res (List (Fl K)) := do
  griddingNearestChecks ipoints values minNum
  let temp ← assignPoints T opoints ipoints values
  omp (mapM (fun n : Int => do
    let curr ← vget temp n
    griddingNearestAt rnd minNum s curr) (upto opoints.size))

/-- `gridpp::count(const Grid&, const Points&, float)` (count.cpp:6-17). -/
def countGP [HasSqrt K] (T : RTree K) (grid : Grid K) (points : Points K) (radius : Fl K) : Res (List (Fl K)) :=
  omp (mapM (fun i : Int => do
    let la ← vget points.lats i
    let lo ← vget points.lons i
    let n ← grid.getNumNeighbours T la lo radius true
    ok (Fl.ofNat n)) (upto points.lats.length))

/-- `gridpp::count(const Grid&, const Grid&, float)` (count.cpp:19-35). -/
def countGG [HasSqrt K] (T : RTree K) (igrid ogrid : Grid K) (radius : Fl K) : Res (List (List (Fl K))) := do
  let sz ← ogrid.size
  omp (grid2 sz.1 sz.2 fun i j => do
    let la ← vget2 ogrid.lats i j
    let lo ← vget2 ogrid.lons i j
    let n ← igrid.getNumNeighbours T la lo radius true
    ok (Fl.ofNat n))

/-- `gridpp::count(const Points&, const Grid&, float)` (count.cpp:37-53). -/
def countPG [HasSqrt K] (T : RTree K) (points : Points K) (grid : Grid K) (radius : Fl K) : Res (List (List (Fl K))) := do
  let sz ← grid.size
  omp (grid2 sz.1 sz.2 fun i j => do
    let la ← vget2 grid.lats i j
    let lo ← vget2 grid.lons i j
    let n ← points.getNumNeighbours T la lo radius true
    ok (Fl.ofNat n))

/-- `gridpp::count(const Points&, const Points&, float)` (count.cpp:55-66). -/
def countPP [HasSqrt K] (T : RTree K) (ipoints opoints : Points K) (radius : Fl K) : Res (List (Fl K)) :=
  omp (mapM (fun i : Int => do
    let la ← vget opoints.lats i
    let lo ← vget opoints.lons i
    let n ← ipoints.getNumNeighbours T la lo radius true
    ok (Fl.ofNat n)) (upto opoints.lats.length))

/-- Great-circle distance between two different finite locations (kdtree.cpp:121-131), kept abstract; over `ℝ` the formula
of the source, see `Verif.Base.Trig`. -/
class HasArc (K : Type) where
  arc : K → K → K → K → K

/-- `KDTree::calc_distance` (kdtree.cpp:107-133). A geodetic distance with a missing or infinite coordinate is NaN
(the trigonometric functions of NaN and infinity are NaN). -/
def calcDistance [HasSqrt K] [HasArc K] (lat1 lon1 lat2 lon2 : Fl K) (type : CoordType) : Fl K :=
  match type with
  | .cartesian =>
    let dx := lon1 - lon2
    let dy := lat1 - lat2
    Fl.sqrt (dx * dx + dy * dy)
  | .geodetic =>
    if lat1.feq lat2 && lon1.feq lon2 then 0
    else match lat1, lon1, lat2, lon2 with
      | fin a, fin b, fin c, fin d => fin (HasArc.arc a b c d)
      | _, _, _, _ => nan

/-- The running maximum of distance.cpp:18-25 and the three other loops. -/
def maxDist (m d : Fl K) : Fl K := if d.gt m then d else m

/-- `gridpp::distance(const Grid&, const Points&, int)` (distance.cpp:6-30). -/
def distanceGP [HasSqrt K] [HasArc K] (T : RTree K) (grid : Grid K) (points : Points K) (num : Int) : Res (List (Fl K)) :=
  if grid.type ≠ points.type then throw .invalidArgument
  else omp (mapM (fun i : Int => do
    let la ← vget points.lats i
    let lo ← vget points.lons i
    let indices ← grid.getClosestNeighbours T la lo num true
    let ds ← mapM (fun c : Nat × Nat => do
      let ila ← vget2 grid.lats c.1 c.2
      let ilo ← vget2 grid.lons c.1 c.2
      ok (calcDistance la lo ila ilo grid.type)) indices
    ok (ds.foldl maxDist 0)) (upto points.lats.length))

/-- `gridpp::distance(const Grid&, const Grid&, int)` (distance.cpp:32-63). -/
def distanceGG [HasSqrt K] [HasArc K] (T : RTree K) (igrid ogrid : Grid K) (num : Int) : Res (List (List (Fl K))) :=
  if igrid.type ≠ ogrid.type then throw .invalidArgument
  else do
    let sz ← ogrid.size
    omp (grid2 sz.1 sz.2 fun i j => do
      let la ← vget2 ogrid.lats i j
      let lo ← vget2 ogrid.lons i j
      let indices ← igrid.getClosestNeighbours T la lo num true
      let ds ← mapM (fun c : Nat × Nat => do
        let ila ← vget2 igrid.lats c.1 c.2
        let ilo ← vget2 igrid.lons c.1 c.2
        ok (calcDistance ila ilo la lo igrid.type)) indices
      ok (ds.foldl maxDist 0))

/-- `gridpp::distance(const Points&, const Grid&, int)` (distance.cpp:65-94). -/
def distancePG [HasSqrt K] [HasArc K] (T : RTree K) (points : Points K) (grid : Grid K) (num : Int) : Res (List (List (Fl K))) :=
  if points.type ≠ grid.type then throw .invalidArgument
  else do
    let sz ← grid.size
    omp (grid2 sz.1 sz.2 fun i j => do
      let la ← vget2 grid.lats i j
      let lo ← vget2 grid.lons i j
      let indices ← points.getClosestNeighbours T la lo num true
      let ds ← mapM (fun k : Nat => do
        let ila ← vget points.lats (k : Int)
        let ilo ← vget points.lons (k : Int)
        ok (calcDistance ila ilo la lo points.type)) indices
      ok (ds.foldl maxDist 0))

/-- `gridpp::distance(const Points&, const Points&, int)` (distance.cpp:96-122). -/
def distancePP [HasSqrt K] [HasArc K] (T : RTree K) (ipoints opoints : Points K) (num : Int) : Res (List (Fl K)) :=
  if ipoints.type ≠ opoints.type then throw .invalidArgument
  else omp (mapM (fun i : Int => do
    let la ← vget opoints.lats i
    let lo ← vget opoints.lons i
    let indices ← ipoints.getClosestNeighbours T la lo num true
    let ds ← mapM (fun k : Nat => do
      let ila ← vget ipoints.lats (k : Int)
      let ilo ← vget ipoints.lons (k : Int)
      ok (calcDistance la lo ila ilo ipoints.type)) indices
    ok (ds.foldl maxDist 0)) (upto opoints.lats.length))

end
end Gridpp
