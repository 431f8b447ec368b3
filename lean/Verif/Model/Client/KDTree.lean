import Verif.Model.Client.Field

/-! # src/client/KDTree.cpp: the nearest neighbour search of the client -/

set_option linter.unusedSectionVars false

namespace Gridpp.Client
open Fl Res

variable {K : Type} [Field K] [LinearOrder K]

/-- `acos(ratio) * radiusEarth` as a function of the four coordinates in degrees (src/client/Util.cpp:121-136): the angles are
computed with `Util::pi` = 3.14159265 (lines 37, 140-142). Rounding is not modelled, so the argument of `acos` is in [-1, 1]. -/
class HasArcC (K : Type) where
  arc : K → K → K → K → K

/-- `fabs(x) <= b`. -/
def absLe (x : Fl K) (b : K) : Bool := x.le (fin b) && x.ge (fin (-b))

/-- `Util::getDistance` with `approx` false (src/client/Util.cpp:107-138). -/
def getDistance [HasArcC K] (lat1 lon1 lat2 lon2 : Fl K) : Res (Fl K) :=
  if !isValid lat1 || !isValid lat2 || !isValid lon1 || !isValid lon2 then ok MV
  else if !(absLe lat1 90 && absLe lat2 90 && absLe lon1 360 && absLe lon2 360) then error
  else if lat1.feq lat2 && lon1.feq lon2 then ok 0
  else match lat1, lon1, lat2, lon2 with
    | fin a, fin b, fin c, fin d => ok (fin (HasArcC.arc a b c d))
    | _, _, _, _ => ok nan

/-- `KDTree::Indexed` (src/client/KDTree.h:58-70); also what a node keeps. -/
structure Site (K : Type) where
  lon : Fl K
  lat : Fl K
  i : Nat
  j : Nat
  deriving DecidableEq

/-- `KDTree::TreeNode` (src/client/KDTree.h:23-56). `nil` is the null pointer. The pointer to the parent is left out: it is used
only to go back up the path that the search came down, see `nearest`. -/
inductive KD (K : Type) where
  | nil
  | node (xsection : Bool) (site : Site K) (left right : KD K)
  deriving DecidableEq

namespace KD

/-- Is the pointer null? -/
def isNil : KD K → Bool
  | nil => true
  | node .. => false

/-- The key of a section (src/client/KDTree.cpp:62-63). -/
def key (xsection : Bool) (s : Site K) : Fl K := if xsection then s.lon else s.lat

/-- The loop that moves `med` past equal keys (src/client/KDTree.cpp:90-93 and 97-100): `cur` is at `med`, `rest` comes after it. -/
def advance (xsection : Bool) (cur : Site K) : List (Site K) → Nat → Nat
  | [], med => med
  | p :: t, med => if (key xsection cur).feq (key xsection p) then advance xsection p t (med + 1) else med

/-- `KDTree::subTree` (src/client/KDTree.cpp:65-111). `l` is the part `from ... to` of the array; the ranges given to the two
recursive calls are disjoint, so sorting in place is the same as sorting the part. `sort` is `std::sort` with the comparison of the
section: it is not stable, so any sorted order may come out. `fuel` is at least the number of sites. -/
def subTree (sort : Bool → List (Site K) → List (Site K)) : Nat → List (Site K) → Bool → Res (KD K)
  | 0, _, _ => .ub
  | fuel + 1, l, xsection =>
    if l.length = 1 then do
      let s ← vget l 0
      ok (.node xsection s nil nil)
    else do
      let sorted := sort xsection l
      let cur ← vget sorted ((l.length / 2 : Nat) : Int)
      let med := advance xsection cur (sorted.drop (l.length / 2 + 1)) (l.length / 2)
      let s ← vget sorted (med : Int)
      let left ← if 0 < med then subTree sort fuel (sorted.take med) (!xsection) else ok nil
      let right ← if med < l.length - 1 then subTree sort fuel (sorted.drop (med + 1)) (!xsection) else ok nil
      ok (.node xsection s left right)

/-- The valid sites in the order of the loops (src/client/KDTree.cpp:43-54). -/
def sites (lats lons : List (List (Fl K))) : Res (List (Site K)) := do
  let row0 ← vget lats 0
  let rows ← mapM (fun i : Nat => do
    let cells ← mapM (fun j : Nat => do
      let lon ← vget2 lons i j
      if isValid lon then do
        let lat ← vget2 lats i j
        ok (if isValid lat then [Site.mk lon lat i j] else [])
      else ok []) (List.range row0.length)
    ok cells.flatten) (List.range lats.length)
  ok rows.flatten

/-- `KDTree::build` (src/client/KDTree.cpp:29-60). -/
def build (sort : Bool → List (Site K) → List (Site K)) (lats lons : List (List (Fl K))) : Res (KD K) :=
  if lats.length ≠ lons.length then error
  else if lats.length = 0 then error
  else do
    let row0 ← vget lats 0
    if row0.length = 0 then error
    else do
      let l ← sites lats lons
      if l.length = 0 then error
      else subTree sort l.length l true

/-- The distance to the line of the section (src/client/KDTree.cpp:148-153). -/
def acrossDistance [HasArcC K] (lat lon : Fl K) (xsection : Bool) (p : Site K) : Res (Fl K) :=
  if xsection then getDistance lat lon lat p.lon else getDistance lat lon p.lat lon

/-- The body of the loop of `KDTree::nearestNeighbour` (src/client/KDTree.cpp:141-181) at a node with site `p`. `below` is
`nearestLeaf` and `currBest`; `fromLeft` is `currentLeaf->left.get() == nearLeaf`, false at the first guess itself. `left` and
`right` search the children, `none` for a null pointer. -/
def visit [HasArcC K] (lat lon : Fl K) (xsection : Bool) (p : Site K) (left right : Option (Fl K → Res (Site K × Fl K)))
    (below : Site K × Fl K) (fromLeft : Bool) : Res (Site K × Fl K) := do
  let dist ← getDistance lat lon p.lat p.lon
  let s := if dist.lt below.2 then (p, dist) else below
  let across ← acrossDistance lat lon xsection p
  if across.lt s.2 then
    match if fromLeft then right else left with
    | none => ok s
    | some search => do
      let refined ← search s.2
      ok (if refined.2.lt s.2 then refined else s)
  else ok s

/-- `KDTree::nearestNeighbour` with `firstGuess` (src/client/KDTree.cpp:113-190). The code walks down to the first guess and then
in a loop along the parents up to `root`. Here the way down is the first recursive call, and the state of the loop when it comes to
the present node is the result of that call. -/
def nearest [HasArcC K] (lat lon : Fl K) : KD K → Fl K → Res (Site K × Fl K)
  | nil, _ => .ub
  | node xsection p l r, oldBest => do
    let left := if l.isNil then none else some (nearest lat lon l)
    let right := if r.isNil then none else some (nearest lat lon r)
    match if (if xsection then lon.le p.lon else lat.le p.lat) then left else right with
    | none => visit lat lon xsection p left right (p, oldBest) false
    | some search => do
      let below ← search oldBest
      visit lat lon xsection p left right below (if xsection then lon.le p.lon else lat.le p.lat)

/-- `KDTree::getNearestNeighbour` for one place (src/client/KDTree.cpp:229-234). A null root is dereferenced. -/
def getNearestNeighbour [HasArcC K] (root : KD K) (lat lon : Fl K) : Res (Int × Int) := do
  let s ← nearest lat lon root pinf
  ok ((s.1.i : Int), (s.1.j : Int))

/-- `KDTree::getNearestNeighbour` for a grid (src/client/KDTree.cpp:192-227); nLat, nLon are the sizes the file reports. The value
-999 is stored as an `int`. -/
def getNearestNeighbours [HasArcC K] (root : KD K) (nLat nLon : Nat) (olats olons : List (List (Fl K))) : Res (List (List (Int × Int))) :=
  if root.isNil then ok (List.replicate nLat (List.replicate nLon (-999, -999)))
  else grid2 nLat nLon fun i j => do
    let lat ← vget2 olats i j
    let lon ← vget2 olons i j
    if isValid lat && isValid lon then getNearestNeighbour root lat lon else ok (-999, -999)

end KD

end Gridpp.Client
