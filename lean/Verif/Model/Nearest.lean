import Verif.Model.Geo

/-! Model of nearest.cpp and of the size checks it uses. -/

set_option linter.unusedSectionVars false

namespace Gridpp
open Fl Res

section
variable {K : Type} [Field K] [LinearOrder K] [IsStrictOrderedRing K] [HasGeo K]

/-- `gridpp::compatible_size(const Grid&, const vec2&)` (util.cpp:427-429). Only the first row of `v` is looked at. -/
def compatibleSizeG2 {α : Type} (g : Grid K) (v : List (List α)) : Res Bool :=
  match v with
  | [] => ok true
  | r :: _ => do
    let s ← g.size
    ok (decide (s.1 = v.length) && decide (s.2 = r.length))

/-- `gridpp::compatible_size(const Grid&, const vec3&)` (util.cpp:430-432). -/
def compatibleSizeG3 {α : Type} (g : Grid K) (v : List (List (List α))) : Res Bool :=
  match v with
  | [] => ok true
  | [] :: _ => ok true
  | (r :: t) :: _ => do
    let s ← g.size
    ok (decide (s.1 = t.length + 1) && decide (s.2 = r.length))

/-- `gridpp::compatible_size(const Points&, const vec2&)` (util.cpp:433-435). -/
def compatibleSizeP2 {α : Type} (p : Points K) (v : List (List α)) : Bool :=
  match v with
  | [] => true
  | r :: _ => decide (p.size = r.length)

/-- `gridpp::compatible_size(const Points&, const vec&)` (util.cpp:436-438). -/
def compatibleSizeP1 {α : Type} (p : Points K) (v : List α) : Bool := decide (p.size = v.length)

/-- `gridpp::init_vec3` (util.cpp:488-496). -/
def initVec3 {α : Type} (T Y X : Nat) (v : α) : List (List (List α)) := List.replicate T (initVec2 Y X v)

/-- Nearest cell of a grid; elements 0 and 1 of the returned vector are read without a check (nearest.cpp:55-57, 139-141,
169-171). -/
def nearestCell (T : RTree K) (g : Grid K) (lat lon : Fl K) : Res (Nat × Nat) := do
  let nn ← g.getNearestNeighbour T lat lon true
  match nn with
  | none => ub
  | some c => ok c

/-- Nearest cell of a grid, with the assertion that the returned vector is not empty (nearest.cpp:23-26). -/
def nearestCellChecked (T : RTree K) (g : Grid K) (lat lon : Fl K) : Res (Nat × Nat) := do
  let nn ← g.getNearestNeighbour T lat lon true
  match nn with
  | none => abort
  | some c => ok c

/-- `gridpp::nearest(const Grid&, const Grid&, const vec2&)` (nearest.cpp:7-31). -/
def nearestGG2 (T : RTree K) (igrid ogrid : Grid K) (iv : List (List (Fl K))) : Res (List (List (Fl K))) := do
  let c ← compatibleSizeG2 igrid iv
  if c = false then throw .invalidArgument
  else do
    let row0 ← vget ogrid.lats 0
    let s ← igrid.size
    if s.1 = 0 ∨ s.2 = 0 then ok (initVec2 ogrid.lats.length row0.length MV)
    else omp (grid2 ogrid.lats.length row0.length fun i j => do
      let la ← vget2 ogrid.lats i j
      let lo ← vget2 ogrid.lons i j
      let c ← nearestCellChecked T igrid la lo
      vget2 iv c.1 c.2)

/-- `gridpp::nearest(const Grid&, const Grid&, const vec3&)` (nearest.cpp:32-71). The two index fields are one field of
pairs. -/
def nearestGG3 (T : RTree K) (igrid ogrid : Grid K) (iv : List (List (List (Fl K)))) : Res (List (List (List (Fl K)))) := do
  let c ← compatibleSizeG3 igrid iv
  if c = false then throw .invalidArgument
  else do
    let row0 ← vget ogrid.lats 0
    let nLat := ogrid.lats.length
    let nLon := row0.length
    let s ← igrid.size
    if s.1 = 0 ∨ s.2 = 0 then ok (initVec3 iv.length nLat nLon MV)
    else do
      let IJ ← omp (grid2 nLat nLon fun i j => do
        let la ← vget2 ogrid.lats i j
        let lo ← vget2 ogrid.lons i j
        nearestCell T igrid la lo)
      mapM (fun t : Int => grid2 nLat nLon fun i j => do
        let c ← vget2 IJ i j
        let ft ← vget iv t
        vget2 ft c.1 c.2) (upto iv.length)

/-- `gridpp::nearest(const Points&, const Grid&, const vec&)` (nearest.cpp:73-95). -/
def nearestPG1 (T : RTree K) (ip : Points K) (ogrid : Grid K) (iv : List (Fl K)) : Res (List (List (Fl K))) :=
  if ip.size ≠ iv.length then throw .invalidArgument
  else do
    let row0 ← vget ogrid.lats 0
    if ip.size = 0 then ok (initVec2 ogrid.lats.length row0.length MV)
    else omp (grid2 ogrid.lats.length row0.length fun i j => do
      let la ← vget2 ogrid.lats i j
      let lo ← vget2 ogrid.lons i j
      let index ← ip.getNearestNeighbour T la lo true
      vget iv index)

/-- `gridpp::nearest(const Points&, const Grid&, const vec2&)` (nearest.cpp:96-122). Simplification: all indices are
computed before the values are read; the source does both in the same loop over the cells. -/
def nearestPG2 (T : RTree K) (ip : Points K) (ogrid : Grid K) (iv : List (List (Fl K))) : Res (List (List (List (Fl K)))) :=
  if compatibleSizeP2 ip iv = false then throw .invalidArgument
  else do
    let row0 ← vget ogrid.lats 0
    let nLat := ogrid.lats.length
    let nLon := row0.length
    if ip.size = 0 then ok (initVec3 iv.length nLat nLon MV)
    else do
      let I ← omp (grid2 nLat nLon fun i j => do
        let la ← vget2 ogrid.lats i j
        let lo ← vget2 ogrid.lons i j
        ip.getNearestNeighbour T la lo true)
      mapM (fun t : Int => grid2 nLat nLon fun i j => do
        let index ← vget2 I i j
        vget2 iv t index) (upto iv.length)

/-- `gridpp::nearest(const Grid&, const Points&, const vec2&)` (nearest.cpp:124-145). -/
def nearestGP2 (T : RTree K) (igrid : Grid K) (op : Points K) (iv : List (List (Fl K))) : Res (List (Fl K)) := do
  let c ← compatibleSizeG2 igrid iv
  if c = false then throw .invalidArgument
  else do
    let s ← igrid.size
    if s.1 = 0 ∨ s.2 = 0 then ok (List.replicate op.lats.length MV)
    else omp (mapM (fun i : Int => do
      let la ← vget op.lats i
      let lo ← vget op.lons i
      let c ← nearestCell T igrid la lo
      vget2 iv c.1 c.2) (upto op.lats.length))

/-- `gridpp::nearest(const Grid&, const Points&, const vec3&)` (nearest.cpp:146-180). -/
def nearestGP3 (T : RTree K) (igrid : Grid K) (op : Points K) (iv : List (List (List (Fl K)))) : Res (List (List (Fl K))) := do
  let c ← compatibleSizeG3 igrid iv
  if c = false then throw .invalidArgument
  else do
    let s ← igrid.size
    if s.1 = 0 ∨ s.2 = 0 then ok (initVec2 iv.length op.lats.length MV)
    else do
      let IJ ← omp (mapM (fun i : Int => do
        let la ← vget op.lats i
        let lo ← vget op.lons i
        nearestCell T igrid la lo) (upto op.lats.length))
      grid2 iv.length op.lats.length fun t i => do
        let c ← vget IJ i
        let ft ← vget iv t
        vget2 ft c.1 c.2

/-- `gridpp::nearest(const Points&, const Points&, const vec&)` (nearest.cpp:181-202). -/
def nearestPP1 (T : RTree K) (ip op : Points K) (iv : List (Fl K)) : Res (List (Fl K)) :=
  if ip.size ≠ iv.length then throw .invalidArgument
  else if ip.size = 0 then ok (List.replicate op.lats.length MV)
  else omp (mapM (fun i : Int => do
    let la ← vget op.lats i
    let lo ← vget op.lons i
    let index ← ip.getNearestNeighbour T la lo true
    assert (decide (index ≠ -1))
    assert (decide (index < (iv.length : Int)))
    vget iv index) (upto op.lats.length))

/-- `gridpp::nearest(const Points&, const Points&, const vec2&)` (nearest.cpp:203-229). Simplification as for
`nearestPG2`. -/
def nearestPP2 (T : RTree K) (ip op : Points K) (iv : List (List (Fl K))) : Res (List (List (Fl K))) :=
  if compatibleSizeP2 ip iv = false then throw .invalidArgument
  else if ip.size = 0 then ok (initVec2 iv.length op.lats.length MV)
  else do
    let I ← omp (mapM (fun i : Int => do
      let la ← vget op.lats i
      let lo ← vget op.lons i
      ip.getNearestNeighbour T la lo true) (upto op.lats.length))
    grid2 iv.length op.lats.length fun t i => do
      let index ← vget I i
      vget2 iv t index

end
end Gridpp
