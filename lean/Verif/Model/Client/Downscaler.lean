import Verif.Model.Client.KDTree
import Verif.Model.Client.Util

/-!
# src/client/Downscaler: neighbours, nearest neighbour, pressure, upscale, smart

A file is reduced to its latitudes, longitudes and elevations and to the fields of one variable. `File::getNumY`, `File::getNumX`
(src/client/File/File.cpp:323-328) are the number of rows of the latitudes and the length of the first row.
-/

set_option linter.unusedSectionVars false

namespace Gridpp.Client
open Fl Res

variable {K : Type} [Field K] [LinearOrder K]

/-- `File::getNumX` (src/client/File/File.cpp:326-328). -/
def numX (lats : List (List (Fl K))) : Res Nat := do
  let row ← vget lats 0
  ok row.length

/-- `==` of two vectors of float. -/
def eqVec (a b : List (Fl K)) : Bool := decide (a.length = b.length) && (a.zip b).all fun p => p.1.feq p.2

/-- `==` of two `vec2`. -/
def eqVec2 (a b : List (List (Fl K))) : Bool := decide (a.length = b.length) && (a.zip b).all fun p => eqVec p.1 p.2

/-- The shortcut `if(iFrom.getNumY() == iTo.getNumY() && ...) if(ilats == olats && ilons == olons)`
(src/client/Downscaler/Downscaler.cpp:70-71 and 113-114). -/
def identicalGrids (ilats ilons olats olons : List (List (Fl K))) : Res Bool :=
  if ilats.length = olats.length then do
    let ix ← numX ilats
    let ox ← numX olats
    ok (decide (ix = ox) && eqVec2 ilats olats && eqVec2 ilons olons)
  else ok false

/-- The result of the shortcut (src/client/Downscaler/Downscaler.cpp:72-79 and 116-126). -/
def ownIndices (nLat nLon : Nat) : List (List (Int × Int)) :=
  tabulate nLat nLon fun i j => ((i : Int), (j : Int))

/-- One grid point in the loops of `getNearestNeighbourBruteForce` (src/client/Downscaler/Downscaler.cpp:242-249). The state is
`iI, iJ` and `minDist`. -/
def bruteStep [HasArcC K] (ilats ilons : List (List (Fl K))) (lat lon : Fl K) (s : (Int × Int) × Fl K) (i j : Nat) :
    Res ((Int × Int) × Fl K) := do
  let a ← vget2 ilats i j
  if isValid a then do
    let b ← vget2 ilons i j
    if isValid b then do
      let dist ← getDistance a b lat lon
      ok (if !isValid s.2 || dist.lt s.2 then (((i : Int), (j : Int)), dist) else s)
    else ok s
  else ok s

/-- `Downscaler::getNearestNeighbourBruteForce` for one place (src/client/Downscaler/Downscaler.cpp:231-253). -/
def bruteForce [HasArcC K] (ilats ilons : List (List (Fl K))) (lon lat : Fl K) : Res (Int × Int) :=
  if isValid lat && isValid lon then do
    let s ← foldM (fun s i => do
      let n ← numX ilats
      foldM (fun s j => bruteStep ilats ilons lat lon s i j) s (List.range n)) ((-999, -999), MV) (List.range ilats.length)
    ok s.1
  else ok (-999, -999)

/-- `Downscaler::getNearestNeighbourBruteForce` for two files (src/client/Downscaler/Downscaler.cpp:53-97) if the pair of files is
not in the cache. -/
def bruteForceGrid [HasArcC K] (ilats ilons olats olons : List (List (Fl K))) : Res (List (List (Int × Int))) := do
  let nLon ← numX olats
  let same ← identicalGrids ilats ilons olats olons
  if same then ok (ownIndices olats.length nLon)
  else grid2 olats.length nLon fun i j => do
    let lat ← vget2 olats i j
    let lon ← vget2 olons i j
    if isValid lat && isValid lon then bruteForce ilats ilons lon lat else ok (-999, -999)

/-- `Downscaler::getNearestNeighbour` (src/client/Downscaler/Downscaler.cpp:99-205) if the pair of files is not in the cache. The
branch for regular grids is switched off (`checkRegular` is false, line 133). -/
def treeGrid [HasArcC K] (sort : Bool → List (Site K) → List (Site K)) (ilats ilons olats olons : List (List (Fl K))) :
    Res (List (List (Int × Int))) := do
  let nLon ← numX olats
  let same ← identicalGrids ilats ilons olats olons
  if same then ok (ownIndices olats.length nLon)
  else do
    let root ← KD.build sort ilats ilons
    KD.getNearestNeighbours root olats.length nLon olats olons

/-- `field(I, J, e)` with `int` arguments: a negative number becomes a large `unsigned`, which fails the `assert` of
`Field::getIndex`. -/
def FieldC.getInt (f : FieldC K) (I J : Int) (e : Nat) : Res (Fl K) :=
  if I < 0 ∨ J < 0 then .abort else f.get I.toNat J.toNat e

/-- `Util::isValid(int)`: the number is converted to float (src/client/Util.h:42-44). -/
def isValidInt (i : Int) : Bool := decide (i ≠ -999)

/-- The body of the loops of the nearest neighbour downscaler (src/client/Downscaler/NearestNeighbour.cpp:34-37). -/
def nearestValue (ifield : FieldC K) (c : Int × Int) (e : Nat) : Res (Fl K) :=
  if isValidInt c.1 && isValidInt c.2 then ifield.getInt c.1 c.2 e else ok MV

/-- `DownscalerNearestNeighbour::downscaleField` (src/client/Downscaler/NearestNeighbour.cpp:43-66), also the loops over the grid in
`downscaleCore` (lines 28-40). `near` are `nearestI` and `nearestJ`. -/
def nearestField (near : List (List (Int × Int))) (ifield ofield : FieldC K) : Res (FieldC K) :=
  FieldC.forCells ofield.nY ofield.nX (fun f i j => do
    let c ← vget2 near i j
    foldM (fun f e => do
      let v ← nearestValue ifield c e
      f.set i j e v) f (List.range ofield.nE)) ofield

/-- The loop over time steps of a downscaler, for example src/client/Downscaler/NearestNeighbour.cpp:24-41; `getField` finds the
fields (src/client/File/File.cpp:79-130, not modelled here). -/
def eachStep (body : FieldC K → FieldC K → Res (FieldC K)) (ifields ofields : List (FieldC K)) : Res (List (FieldC K)) :=
  mapM (fun t : Nat => do
    let ifield ← vget ifields t
    let ofield ← vget ofields t
    body ifield ofield) (List.range ifields.length)

/-- `Downscaler::downscale` (src/client/Downscaler/Downscaler.cpp:15-21): `none` if it returns false. -/
def downscale (core : Res (List (FieldC K))) (ifields ofields : List (FieldC K)) : Res (Option (List (FieldC K))) :=
  if ifields.length ≠ ofields.length then ok none
  else do
    let out ← core
    ok (some out)

/-- `DownscalerNearestNeighbour::downscaleCore` (src/client/Downscaler/NearestNeighbour.cpp:13-42). The output fields have the sizes
that the output file reports. -/
def nearestCore [HasArcC K] (sort : Bool → List (Site K) → List (Site K)) (ilats ilons olats olons : List (List (Fl K)))
    (ifields ofields : List (FieldC K)) : Res (List (FieldC K)) := do
  let near ← treeGrid sort ilats ilons olats olons
  eachStep (nearestField near) ifields ofields

/-- `DownscalerNearestNeighbour::downscaleVec` (src/client/Downscaler/NearestNeighbour.cpp:68-111). `nearestI` and `nearestJ` are one
table of pairs here, so that the asserts on their sizes come once. In `I < iInput.size()` a negative `I` becomes a large number. -/
def nearestVec (input olats : List (List (Fl K))) (near : List (List (Int × Int))) : Res (List (List (Fl K))) := do
  let nLon ← numX olats
  assert (decide (near.length = olats.length))
  let n0 ← vget near 0
  assert (decide (n0.length = nLon))
  grid2 olats.length nLon fun i j => do
    let row ← vget near i
    assert (decide (j < row.length))
    let c ← vget row j
    assert (decide (0 ≤ c.1) && decide (c.1 < input.length))
    let r ← vget input c.1
    assert (decide (0 ≤ c.2) && decide (c.2 < r.length))
    if isValidInt c.1 && isValidInt c.2 then vget r c.2 else ok MV

end Gridpp.Client
