import Verif.Model.Util

/-!
# src/api/kdtree.cpp, points.cpp, point.cpp, grid.cpp: locations

Simplifications, common to the file:
* coordinates are exact; the conversion of (lat, lon) to a point on the sphere (util.cpp:607-612) is an arbitrary function
  `HasGeo.geo` (over `ℝ`: the formula of the source, see `Verif.Base.Trig`);
* the boost r-tree is the parameter `T : RTree K`, of which `RTree.Lawful` is assumed in theorems. The query results
  come in no particular order;
* an `ivec` of size 0 or 2 returned by the nearest-neighbour lookup of a grid is `Option (Nat × Nat)`.
-/

set_option linter.unusedSectionVars false

namespace Gridpp

open Fl Res

/-- `gridpp::CoordinateType` (include/gridpp.h:120-123). -/
inductive CoordType where
  | geodetic | cartesian
  deriving DecidableEq, Repr

/-- A point of the search tree: `boost::geometry::model::point<float, 3, cartesian>` (include/gridpp.h:1846). -/
structure Pt3 (K : Type) where
  x : K
  y : K
  z : K
  deriving DecidableEq, Repr

/-- (lat, lon) in degrees to x, y, z on the sphere. -/
class HasGeo (K : Type) where
  geo : K → K → Pt3 K

section
variable {K : Type} [Field K] [LinearOrder K]

/-- `is_valid_lat` (util.cpp:617-621). -/
def isValidLat (lat : Fl K) (type : CoordType) : Bool :=
  match type with
  | .cartesian => lat.isValid
  | .geodetic => lat.isValid && lat.ge (fin (-(90001 / 1000))) && lat.le (fin (90001 / 1000))

/-- `is_valid_lon` (util.cpp:622-624). -/
def isValidLon (lon : Fl K) : Bool := lon.isValid

/-- `convert_coordinates(float, float, ...)` (util.cpp:594-615). -/
def convertCoordinates [HasGeo K] (lat lon : Fl K) (type : CoordType) : Res (Pt3 K) :=
  if !isValidLat lat type || !isValidLon lon then throw .invalidArgument
  else match lat, lon with
    | fin a, fin o => ok (match type with
      | .cartesian => ⟨o, a, 0⟩
      | .geodetic => HasGeo.geo a o)
    | _, _ => ub

/-- Square of the straight-line distance. -/
def sqDist (p q : Pt3 K) : K := (p.x - q.x) * (p.x - q.x) + (p.y - q.y) * (p.y - q.y) + (p.z - q.z) * (p.z - q.z)

/-- `KDTree::calc_straight_distance` (kdtree.cpp:192-194). -/
def straightDistance [HasSqrt K] (p q : Pt3 K) : K := HasSqrt.sqrt (sqDist p q)

/-- The queries of `boost::geometry::index::rtree` that are used, on the list of (point, index) values inserted:
`select` is `query(satisfies(pred))`; `nearest` is `query(nearest(p, n) && satisfies(pred))`. -/
structure RTree (K : Type) where
  select : List (Pt3 K × Nat) → (Pt3 K × Nat → Bool) → List (Pt3 K × Nat)
  nearest : List (Pt3 K × Nat) → Pt3 K → Nat → (Pt3 K × Nat → Bool) → List (Pt3 K × Nat)

/-- What is assumed of the tree (boost documentation): `select` gives the values that satisfy the predicate, each once, in
some order; `nearest` with `n > 0` gives `min n (number satisfying)` of them, none farther than one left out. -/
structure RTree.Lawful (T : RTree K) : Prop where
  select_perm : ∀ vals pred, (T.select vals pred).Perm (vals.filter pred)
  nearest_spec : ∀ vals p n pred, 0 < n → ∃ rest, (T.nearest vals p n pred ++ rest).Perm (vals.filter pred) ∧
    (T.nearest vals p n pred).length = min n (vals.filter pred).length ∧
    ∀ a ∈ T.nearest vals p n pred, ∀ b ∈ rest, sqDist a.1 p ≤ sqDist b.1 p

/-- A tree that meets the contract: a linear scan and a sort. Used to show that `Lawful` can be met and in examples. -/
def RTree.scan : RTree K where
  select := fun vals pred => vals.filter pred
  nearest := fun vals p n pred => ((vals.filter pred).insertionSort fun a b => sqDist a.1 p ≤ sqDist b.1 p).take n

/-- `gridpp::KDTree` (include/gridpp.h:1746-1850). `pts` are `mX`, `mY`, `mZ`. -/
structure KDTree (K : Type) where
  lats : List (Fl K)
  lons : List (Fl K)
  pts : List (Pt3 K)
  type : CoordType

/-- `KDTree(CoordinateType)` (include/gridpp.h:1751). -/
def KDTree.empty (type : CoordType) : KDTree K := ⟨[], [], [], type⟩

/-- `KDTree(vec, vec, CoordinateType)` (kdtree.cpp:6-16, util.cpp:583-593). A `lons` shorter than `lats` is read outside. -/
def KDTree.new [HasGeo K] (lats lons : List (Fl K)) (type : CoordType) : Res (KDTree K) := do
  let pts ← mapM (fun i : Nat => do
    let lat ← vget lats (i : Int)
    let lon ← vget lons (i : Int)
    convertCoordinates lat lon type) (List.range lats.length)
  ok ⟨lats, lons, pts, type⟩

/-- `KDTree::size` (kdtree.cpp:216-218). -/
def KDTree.size (t : KDTree K) : Nat := t.lats.length

/-- The values inserted in the tree (kdtree.cpp:12-15). -/
def KDTree.values (t : KDTree K) : List (Pt3 K × Nat) := t.pts.zipIdx

/-- `within_radius::operator()` (kdtree.cpp:247-260). -/
def withinRadius [HasSqrt K] (p : Pt3 K) (radius : Fl K) (includeMatch : Bool) (v : Pt3 K × Nat) : Bool :=
  let dist : Fl K := fin (straightDistance v.1 p)
  if includeMatch then dist.le radius else dist.le radius && dist.gt 0

/-- `boost::geometry::index::within(box)` with the box of `get_neighbours` (kdtree.cpp:46,53): strictly inside. -/
def insideBox (p : Pt3 K) (radius : Fl K) (v : Pt3 K × Nat) : Bool :=
  (Fl.lt (fin p.x - radius) (fin v.1.x) && Fl.lt (fin v.1.x) (fin p.x + radius)) &&
  (Fl.lt (fin p.y - radius) (fin v.1.y) && Fl.lt (fin v.1.y) (fin p.y + radius)) &&
  (Fl.lt (fin p.z - radius) (fin v.1.z) && Fl.lt (fin v.1.z) (fin p.z + radius))

/-- `KDTree::get_neighbours` (kdtree.cpp:39-80). -/
def KDTree.getNeighbours [HasGeo K] [HasSqrt K] (T : RTree K) (t : KDTree K) (lat lon radius : Fl K) (includeMatch : Bool) :
    Res (List Nat) := do
  let p ← convertCoordinates lat lon t.type
  ok ((T.select t.values fun v => insideBox p radius v && withinRadius p radius includeMatch v).map Prod.snd)

/-- `KDTree::get_num_neighbours` (kdtree.cpp:18-21). -/
def KDTree.getNumNeighbours [HasGeo K] [HasSqrt K] (T : RTree K) (t : KDTree K) (lat lon radius : Fl K) (includeMatch : Bool) :
    Res Nat := do
  let indices ← t.getNeighbours T lat lon radius includeMatch
  ok indices.length

/-- `KDTree::get_neighbours_with_distance` (kdtree.cpp:23-37). Returns (indices, distances). -/
def KDTree.getNeighboursWithDistance [HasGeo K] [HasSqrt K] (T : RTree K) (t : KDTree K) (lat lon radius : Fl K)
    (includeMatch : Bool) : Res (List Nat × List (Fl K)) := do
  let p ← convertCoordinates lat lon t.type
  let indices ← t.getNeighbours T lat lon radius includeMatch
  let distances ← mapM (fun i : Nat => do
    let la ← vget t.lats (i : Int)
    let lo ← vget t.lons (i : Int)
    let p1 ← convertCoordinates la lo t.type
    ok (fin (straightDistance p p1))) indices
  ok (indices, distances)

/-- `is_not_equal::operator()` (kdtree.cpp:265-270). -/
def isNotEqual (p : Pt3 K) (v : Pt3 K × Nat) : Bool := decide (p.x ≠ v.1.x ∨ p.y ≠ v.1.y ∨ p.z ≠ v.1.z)

/-- `KDTree::get_closest_neighbours` (kdtree.cpp:82-103). `num <= 0` is outside the contract of the r-tree query (and
`reserve(num)` of a negative number throws): `ub` here. -/
def KDTree.getClosestNeighbours [HasGeo K] (T : RTree K) (t : KDTree K) (lat lon : Fl K) (num : Int) (includeMatch : Bool) :
    Res (List Nat) := do
  let p ← convertCoordinates lat lon t.type
  if num ≤ 0 then ub
  else if !includeMatch then ok ((T.nearest t.values p num.toNat (isNotEqual p)).map Prod.snd)
  else ok ((T.nearest t.values p num.toNat fun _ => true).map Prod.snd)

/-- `KDTree::get_nearest_neighbour` (kdtree.cpp:104-106): reads `[0]` of a possibly empty vector. -/
def KDTree.getNearestNeighbour [HasGeo K] (T : RTree K) (t : KDTree K) (lat lon : Fl K) (includeMatch : Bool) : Res Nat := do
  let l ← t.getClosestNeighbours T lat lon 1 includeMatch
  vget l 0

/-- `gridpp::Point` (include/gridpp.h:1700-1745). -/
structure Point (K : Type) where
  lat : Fl K
  lon : Fl K
  elev : Fl K
  laf : Fl K
  type : CoordType
  x : Fl K
  y : Fl K
  z : Fl K
  deriving DecidableEq

/-- `Point(lat, lon, elev, laf, type)` (point.cpp:5-23). In the Cartesian case `x` and `y` are (lat, lon): swapped with
respect to `convert_coordinates`. -/
def Point.new [HasGeo K] (lat lon elev laf : Fl K) (type : CoordType) : Res (Point K) :=
  match type with
  | .geodetic => do
    let p ← convertCoordinates lat lon .geodetic
    ok ⟨lat, lon, elev, laf, .geodetic, fin p.x, fin p.y, fin p.z⟩
  | .cartesian => ok ⟨lat, lon, elev, laf, .cartesian, lat, lon, 0⟩

/-- `gridpp::Points` (include/gridpp.h:1852-1968). -/
structure Points (K : Type) where
  lats : List (Fl K)
  lons : List (Fl K)
  elevs : List (Fl K)
  lafs : List (Fl K)
  tree : KDTree K

/-- `Points(vec, vec, vec, vec, CoordinateType)` (points.cpp:9-31). -/
def Points.new [HasGeo K] (lats lons elevs lafs : List (Fl K)) (type : CoordType) : Res (Points K) :=
  if lons.length ≠ lats.length then throw .invalidArgument
  else if elevs.length ≠ 0 ∧ elevs.length ≠ lats.length then throw .invalidArgument
  else if lafs.length ≠ 0 ∧ lafs.length ≠ lats.length then throw .invalidArgument
  else do
    let tree ← KDTree.new lats lons type
    ok { lats, lons,
         elevs := if elevs.length ≠ lats.length then List.replicate lats.length MV else elevs,
         lafs := if lafs.length ≠ lats.length then List.replicate lats.length MV else lafs,
         tree }

/-- `Points(KDTree, vec, vec)` (points.cpp:32-38). -/
def Points.ofTree (tree : KDTree K) (elevs lafs : List (Fl K)) : Points K := ⟨tree.lats, tree.lons, elevs, lafs, tree⟩

/-- `Points::size` (points.cpp:74-76). -/
def Points.size (p : Points K) : Nat := p.lats.length

/-- `Points::get_coordinate_type` (points.cpp:125-127). -/
def Points.type (p : Points K) : CoordType := p.tree.type

/-- Copy constructor (points.cpp:118-124): line 123 asks the *new* object's tree, which is default constructed
(Geodetic), for its coordinate type. -/
def Points.copy [HasGeo K] (other : Points K) : Res (Points K) := do
  let tree ← KDTree.new other.lats other.lons (KDTree.empty .geodetic : KDTree K).type
  ok ⟨other.lats, other.lons, other.elevs, other.lafs, tree⟩

/-- `operator=` (points.cpp:110-117): takes its argument by value, that is through the copy constructor, then swaps. -/
def Points.assign [HasGeo K] (_self other : Points K) : Res (Points K) := Points.copy other

/-- `Points::get_neighbours` (points.cpp:48-50). -/
def Points.getNeighbours [HasGeo K] [HasSqrt K] (T : RTree K) (p : Points K) (lat lon radius : Fl K) (includeMatch : Bool) :
    Res (List Nat) := p.tree.getNeighbours T lat lon radius includeMatch

/-- `Points::get_neighbours_with_distance` (points.cpp:44-46). -/
def Points.getNeighboursWithDistance [HasGeo K] [HasSqrt K] (T : RTree K) (p : Points K) (lat lon radius : Fl K)
    (includeMatch : Bool) : Res (List Nat × List (Fl K)) := p.tree.getNeighboursWithDistance T lat lon radius includeMatch

/-- `Points::get_num_neighbours` (points.cpp:40-42). -/
def Points.getNumNeighbours [HasGeo K] [HasSqrt K] (T : RTree K) (p : Points K) (lat lon radius : Fl K) (includeMatch : Bool) :
    Res Nat := p.tree.getNumNeighbours T lat lon radius includeMatch

/-- `Points::get_closest_neighbours` (points.cpp:52-54). -/
def Points.getClosestNeighbours [HasGeo K] (T : RTree K) (p : Points K) (lat lon : Fl K) (num : Int) (includeMatch : Bool) :
    Res (List Nat) := p.tree.getClosestNeighbours T lat lon num includeMatch

/-- `Points::get_nearest_neighbour` (points.cpp:55-61). -/
def Points.getNearestNeighbour [HasGeo K] (T : RTree K) (p : Points K) (lat lon : Fl K) (includeMatch : Bool) : Res Int := do
  let I ← p.getClosestNeighbours T lat lon 1 includeMatch
  match I with
  | i :: _ => ok (i : Int)
  | [] => ok (-1)

/-- `Points::get_point` (points.cpp:128-130). -/
def Points.getPoint (p : Points K) (index : Int) : Res (Point K) := do
  let lat ← vget p.lats index
  let lon ← vget p.lons index
  let elev ← vget p.elevs index
  let laf ← vget p.lafs index
  let c ← vget p.tree.pts index
  ok ⟨lat, lon, elev, laf, p.type, fin c.x, fin c.y, fin c.z⟩

/-- `Points::subset` (points.cpp:131-150). The comparison `index >= mLats.size()` converts a negative index to a large
unsigned number. The result is created with the default coordinate type. -/
def Points.subset [HasGeo K] (p : Points K) (indices : List Int) : Res (Points K) := do
  let rows ← mapM (fun index : Int =>
    if index < 0 ∨ (p.lats.length : Int) ≤ index then (throw .invalidArgument : Res (Fl K × Fl K × Fl K × Fl K))
    else do
      let lat ← vget p.lats index
      let lon ← vget p.lons index
      let elev ← vget p.elevs index
      let laf ← vget p.lafs index
      ok (lat, lon, elev, laf)) indices
  Points.new (rows.map fun r => r.1) (rows.map fun r => r.2.1) (rows.map fun r => r.2.2.1) (rows.map fun r => r.2.2.2) .geodetic

/-- `gridpp::Grid` (include/gridpp.h:1971-2075). -/
structure Grid (K : Type) where
  lats : List (List (Fl K))
  lons : List (List (Fl K))
  elevs : List (List (Fl K))
  lafs : List (List (Fl K))
  nx : Nat
  tree : KDTree K

/-- The elevations (or land fractions) kept by the `Grid` constructor (grid.cpp:41-54): replaced by missing values unless
the number of rows and the length of the first row fit. -/
def gridMeta (Y X : Nat) (m : List (List (Fl K))) : List (List (Fl K)) :=
  if m.length ≠ Y ∨ (m.headD []).length ≠ X then initVec2 Y X MV else m

/-- `Grid()` and `Grid(vec2, vec2, vec2, vec2, CoordinateType)` (grid.cpp:6-55). An empty grid is Geodetic. -/
def Grid.new [HasGeo K] (lats lons elevs lafs : List (List (Fl K))) (type : CoordType) : Res (Grid K) :=
  if lats.length = 0 then ok ⟨[], [], [], [], 0, KDTree.empty .geodetic⟩
  else do
    let row0 ← vget lats 0
    let X := row0.length
    let la ← grid2 lats.length X (fun i j => vget2 lats i j)
    let lo ← grid2 lats.length X (fun i j => vget2 lons i j)
    let tree ← KDTree.new la.flatten lo.flatten type
    ok ⟨lats, lons, gridMeta lats.length X elevs, gridMeta lats.length X lafs, X, tree⟩

/-- `Grid::get_indices(int)` (grid.cpp:108-114). Only called with non-negative indices. -/
def Grid.getIndices (g : Grid K) (index : Nat) : Res (Nat × Nat) := do
  assert (decide (index < g.tree.size))
  if g.nx = 0 then ub else ok (index / g.nx, index % g.nx)

/-- `Grid::get_indices(ivec)` (grid.cpp:115-121). -/
def Grid.getIndicesVec (g : Grid K) (indices : List Nat) : Res (List (Nat × Nat)) := mapM g.getIndices indices

/-- `Grid::size` (grid.cpp:122-130). -/
def Grid.size (g : Grid K) : Res (Nat × Nat) :=
  if 0 < g.tree.size then do
    let i ← g.getIndices (g.tree.size - 1)
    ok (i.1 + 1, i.2 + 1)
  else ok (0, 0)

/-- `Grid::get_coordinate_type` (grid.cpp:146-148). -/
def Grid.type (g : Grid K) : CoordType := g.tree.type

/-- `Grid::get_neighbours` (grid.cpp:67-70). -/
def Grid.getNeighbours [HasGeo K] [HasSqrt K] (T : RTree K) (g : Grid K) (lat lon radius : Fl K) (includeMatch : Bool) :
    Res (List (Nat × Nat)) := do
  let indices ← g.tree.getNeighbours T lat lon radius includeMatch
  g.getIndicesVec indices

/-- `Grid::get_num_neighbours` (grid.cpp:57-60). -/
def Grid.getNumNeighbours [HasGeo K] [HasSqrt K] (T : RTree K) (g : Grid K) (lat lon radius : Fl K) (includeMatch : Bool) :
    Res Nat := do
  let indices ← g.tree.getNeighbours T lat lon radius includeMatch
  ok indices.length

/-- `Grid::get_neighbours_with_distance` (grid.cpp:62-65). -/
def Grid.getNeighboursWithDistance [HasGeo K] [HasSqrt K] (T : RTree K) (g : Grid K) (lat lon radius : Fl K)
    (includeMatch : Bool) : Res (List (Nat × Nat) × List (Fl K)) := do
  let r ← g.tree.getNeighboursWithDistance T lat lon radius includeMatch
  let I ← g.getIndicesVec r.1
  ok (I, r.2)

/-- `Grid::get_closest_neighbours` (grid.cpp:72-75). -/
def Grid.getClosestNeighbours [HasGeo K] (T : RTree K) (g : Grid K) (lat lon : Fl K) (num : Int) (includeMatch : Bool) :
    Res (List (Nat × Nat)) := do
  let indices ← g.tree.getClosestNeighbours T lat lon num includeMatch
  g.getIndicesVec indices

/-- `Grid::get_nearest_neighbour` (grid.cpp:76-82); `none` is the empty vector. -/
def Grid.getNearestNeighbour [HasGeo K] (T : RTree K) (g : Grid K) (lat lon : Fl K) (includeMatch : Bool) :
    Res (Option (Nat × Nat)) := do
  let I ← g.getClosestNeighbours T lat lon 1 includeMatch
  ok I.head?

/-- `Grid::get_2d` (grid.cpp:95-107). Division by zero when the grid has no columns. -/
def Grid.get2d (g : Grid K) (input : List (Fl K)) : Res (List (List (Fl K))) :=
  if g.nx = 0 then ub
  else grid2 (input.length / g.nx) g.nx fun i j => vget input (i * g.nx + j)

/-- `Grid::to_points` (grid.cpp:131-145). -/
def Grid.toPoints (g : Grid K) : Res (Points K) := do
  let s ← g.size
  let el ← grid2 s.1 s.2 (fun y x => vget2 g.elevs y x)
  let la ← grid2 s.1 s.2 (fun y x => vget2 g.lafs y x)
  ok (Points.ofTree g.tree el.flatten la.flatten)

/-- `Grid::get_point` (grid.cpp:232-235). -/
def Grid.getPoint (g : Grid K) (y x : Int) : Res (Point K) := do
  let lat ← vget2 g.lats y x
  let lon ← vget2 g.lons y x
  let elev ← vget2 g.elevs y x
  let laf ← vget2 g.lafs y x
  let c ← vget g.tree.pts (y * g.nx + x)
  ok ⟨lat, lon, elev, laf, g.type, fin c.x, fin c.y, fin c.z⟩

/-- A corner for `point_in_rectangle`: `Point(lat, lon)` with the default type Geodetic (grid.cpp:197-201). -/
def boxCorner [HasGeo K] (lat lon : Fl K) : Res (LatLon K) := do
  let p ← Point.new lat lon MV MV .geodetic
  ok ⟨p.lat, p.lon⟩

/-- One iteration of the search of `get_box` (grid.cpp:188-209): `none` if the direction is skipped or the point is not
in the rectangle. -/
def boxTry [HasGeo K] (g : Grid K) (lat lon : Fl K) (Y X nY nX : Int) (ydir xdir : Int) : Res Bool :=
  if Y = 0 ∧ ydir = -1 then ok false
  else if Y = nY - 1 ∧ ydir = 1 then ok false
  else if X = 0 ∧ xdir = -1 then ok false
  else if X = nX - 1 ∧ xdir = 1 then ok false
  else do
    let a1 ← vget2 g.lats Y X
    let a2 ← vget2 g.lons Y X
    let A ← boxCorner a1 a2
    let b1 ← vget2 g.lats (Y + ydir) X
    let b2 ← vget2 g.lons (Y + ydir) X
    let B ← boxCorner b1 b2
    let c1 ← vget2 g.lats (Y + ydir) (X + xdir)
    let c2 ← vget2 g.lons (Y + ydir) (X + xdir)
    let C ← boxCorner c1 c2
    let d1 ← vget2 g.lats Y (X + xdir)
    let d2 ← vget2 g.lons Y (X + xdir)
    let D ← boxCorner d1 d2
    let curr ← boxCorner lat lon
    ok (pointInRectangle A B C D curr)

/-- The loop over the four directions (grid.cpp:184-210): `it` = 0..3 gives (ydir, xdir) = (1,-1), (1,1), (-1,-1), (-1,1). -/
def boxSearch [HasGeo K] (g : Grid K) (lat lon : Fl K) (Y X nY nX : Int) : List (Int × Int) → Res (Option (Int × Int))
  | [] => ok none
  | d :: t => do
    let f ← boxTry g lat lon Y X nY nX d.1 d.2
    if f then ok (some d) else boxSearch g lat lon Y X nY nX t

/-- A box: rows `y1`, `y2` and columns `x1`, `x2`. -/
structure Box where
  y1 : Int
  x1 : Int
  y2 : Int
  x2 : Int
  deriving DecidableEq, Repr

/-- `Grid::get_box` (grid.cpp:149-231); `none` is the return value `false`. (The values left in `Y1`.. on `false` are not
modelled; no caller uses them.) -/
def Grid.getBox [HasGeo K] (T : RTree K) (g : Grid K) (lat lon : Fl K) : Res (Option Box) := do
  let nn ← g.getNearestNeighbour T lat lon true
  match nn with
  | none => ok none
  | some (Y, X) => do
    let s ← g.size
    if s.2 ≤ 1 ∨ s.1 ≤ 1 then ok none
    else do
      let dir ← boxSearch g lat lon Y X s.1 s.2 [(1, -1), (1, 1), (-1, -1), (-1, 1)]
      match dir with
      | none => ok none
      | some (ydir, xdir) =>
        let x1 : Int := if xdir = 1 then X else X - 1
        let y1 : Int := if ydir = 1 then Y else Y - 1
        ok (some ⟨y1, x1, y1 + 1, x1 + 1⟩)

/-- `Points::get_in_domain_indices` (points.cpp:77-92). -/
def Points.getInDomainIndices [HasGeo K] (T : RTree K) (p : Points K) (g : Grid K) : Res (List Nat) := do
  let flags ← mapM (fun s : Nat => do
    let lat ← vget p.lats (s : Int)
    let lon ← vget p.lons (s : Int)
    let b ← g.getBox T lat lon
    ok (s, b.isSome)) (List.range p.size)
  ok ((flags.filter fun f => f.2).map Prod.fst)

/-- `Points::get_in_domain` (points.cpp:93-109). The result is created with the default coordinate type. -/
def Points.getInDomain [HasGeo K] (T : RTree K) (p : Points K) (g : Grid K) : Res (Points K) := do
  let indices ← p.getInDomainIndices T g
  let lats ← mapM (fun i : Nat => vget p.lats (i : Int)) indices
  let lons ← mapM (fun i : Nat => vget p.lons (i : Int)) indices
  let elevs ← mapM (fun i : Nat => vget p.elevs (i : Int)) indices
  let lafs ← mapM (fun i : Nat => vget p.lafs (i : Int)) indices
  Points.new lats lons elevs lafs .geodetic

end
end Gridpp
