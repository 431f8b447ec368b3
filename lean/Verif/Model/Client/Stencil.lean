import Verif.Model.Client.Downscaler
import Verif.Base.Exp

/-!
# src/client/Downscaler/Pressure.cpp, Upscale.cpp and Smart.cpp

The arguments are the coordinates and elevations of the two files and the fields of one variable, as in `Model/Client/Downscaler.lean`.
-/

set_option linter.unusedSectionVars false

namespace Gridpp.Client
open Fl Res

variable {K : Type} [Field K] [LinearOrder K]

/-- Loops over the output grid that first prepare something for a grid point and then set each member. -/
def FieldC.fill {S : Type} (Y X E : Nat) (setup : Nat → Nat → Res S) (val : S → Nat → Res (Fl K)) (f : FieldC K) : Res (FieldC K) :=
  FieldC.forCells Y X (fun f i j => do
    let s ← setup i j
    foldM (fun f e => do
      let v ← val s e
      f.set i j e v) f (List.range E)) f

/-! ### Pressure -/

/-- `DownscalerPressure::calcPressure` (src/client/Downscaler/Pressure.cpp:66-74); the constant is in line 5. -/
def calcPressure [HasExp K] (elev0 pressure0 elev1 : Fl K) : Fl K :=
  if isValid elev0 && isValid pressure0 && isValid elev1 then
    pressure0 * Fl.exp (fin (-(121 / 1000000)) * (elev1 - elev0))
  else MV

/-- The neighbour of a grid point and the asserts (src/client/Downscaler/Pressure.cpp:36-39): a negative index becomes a large number. -/
def pressureSetup (near : List (List (Int × Int))) (ielevs : List (List (Fl K))) (i j : Nat) : Res (Nat × Nat × Int × Int) := do
  let c ← vget2 near i j
  assert (decide (0 ≤ c.1) && decide (c.1 < ielevs.length))
  let row ← vget ielevs c.1
  assert (decide (0 ≤ c.2) && decide (c.2 < row.length))
  ok (i, j, c)

/-- One member (src/client/Downscaler/Pressure.cpp:41-51). -/
def pressureValue [HasExp K] (ielevs oelevs : List (List (Fl K))) (ifield : FieldC K) (s : Nat × Nat × Int × Int) (e : Nat) : Res (Fl K) := do
  let cur ← vget2 oelevs s.1 s.2.1
  let nearest ← vget2 ielevs s.2.2.1 s.2.2.2
  let p ← ifield.getInt s.2.2.1 s.2.2.2 e
  ok (if !isValid cur || !isValid nearest then p else calcPressure nearest p cur)

/-- The loops over the grid of `DownscalerPressure::downscaleCore` (src/client/Downscaler/Pressure.cpp:33-55). -/
def pressureField [HasExp K] (near : List (List (Int × Int))) (ielevs oelevs : List (List (Fl K))) (ifield ofield : FieldC K) : Res (FieldC K) :=
  FieldC.fill ofield.nY ofield.nX ofield.nE (pressureSetup near ielevs) (pressureValue ielevs oelevs ifield) ofield

/-- `DownscalerPressure::downscaleCore` (src/client/Downscaler/Pressure.cpp:12-57). -/
def pressureCore [HasArcC K] [HasExp K] (sort : Bool → List (Site K) → List (Site K)) (ilats ilons ielevs olats olons oelevs : List (List (Fl K)))
    (ifields ofields : List (FieldC K)) : Res (List (FieldC K)) := do
  let near ← treeGrid sort ilats ilons olats olons
  eachStep (pressureField near ielevs oelevs) ifields ofields

/-! ### Upscale -/

/-- One input point in the loops that collect values (src/client/Downscaler/Upscale.cpp:53-59) for the member `e`. The loop over the
members is inside of the loops over the points in the code. -/
def upscaleStep (table : List (List (Int × Int))) (ifield : FieldC K) (i j e : Nat) (acc : List (Fl K)) (ii jj : Nat) : Res (List (Fl K)) := do
  let c ← vget2 table ii jj
  if c.1 = (i : Int) ∧ c.2 = (j : Int) then do
    let curr ← ifield.get ii jj e
    ok (if isValid curr then acc ++ [curr] else acc)
  else ok acc

/-- `values[e]` after the loops over the input points (src/client/Downscaler/Upscale.cpp:49-62). -/
def upscaleValues (table : List (List (Int × Int))) (ifield : FieldC K) (i j e : Nat) : Res (List (Fl K)) :=
  foldM (fun acc ii => do
    let row ← vget table 0
    foldM (fun acc jj => upscaleStep table ifield i j e acc ii jj) acc (List.range row.length)) [] (List.range table.length)

/-- The loops over the output grid (src/client/Downscaler/Upscale.cpp:46-67). -/
def upscaleField [FloorRing K] [HasSqrt K] (s : StatType) (q : Fl K) (table : List (List (Int × Int))) (ifield ofield : FieldC K) :
    Res (FieldC K) :=
  FieldC.fill ofield.nY ofield.nX ofield.nE (fun i j => ok (i, j)) (fun c e => do
    let values ← upscaleValues table ifield c.1 c.2 e
    calculateStat values s q) ofield

/-- `DownscalerUpscale::downscaleCore` (src/client/Downscaler/Upscale.cpp:31-69): the tree is built from the output grid and searched
for the input points. -/
def upscaleCore [FloorRing K] [HasArcC K] [HasSqrt K] (sort : Bool → List (Site K) → List (Site K)) (s : StatType) (q : Fl K)
    (ilats ilons olats olons : List (List (Fl K))) (ifields ofields : List (FieldC K)) : Res (List (FieldC K)) := do
  let root ← KD.build sort olats olons
  let nX ← numX ilats
  let table ← KD.getNearestNeighbours root ilats.length nX ilats ilons
  eachStep (upscaleField s q table) ifields ofields

/-! ### Smart neighbours -/

/-- The input points around `c` (src/client/Downscaler/Smart.cpp:106-107) in the order of the loops. -/
def stencil (nY nX : Nat) (radius : Int) (c : Int × Int) : List (Int × Int) :=
  (irange (max 0 (c.1 - radius)) (min ((nY : Int) - 1) (c.1 + radius))).flatMap fun ii =>
    (irange (max 0 (c.2 - radius)) (min ((nX : Int) - 1) (c.2 + radius))).map fun jj => (ii, jj)

/-- The difference of elevation of an input point (src/client/Downscaler/Smart.cpp:108-111); `abs` is the one for float. -/
def elevDiff (oelev ielev : Fl K) : Fl K :=
  if isValid ielev && isValid oelev then Fl.abs (ielev - oelev) else fin 10000000000

/-- The points that are used for one output point (src/client/Downscaler/Smart.cpp:82-143). `sort` is `std::sort` by the second
component. `nY`, `nX` are the sizes of the input file. A negative number of points makes `resize` throw inside of the OpenMP loop. -/
def smartPoints (sort : List (Nat × Fl K) → List (Nat × Fl K)) (radius num : Int) (minElevDiff : Fl K) (nY nX : Nat)
    (ielevs oelevs : List (List (Fl K))) (near : List (List (Int × Int))) (i j : Int) : Res (List (Int × Int)) := do
  let c ← vget2 near i j
  let oelev ← vget2 oelevs i j
  let nnElev ← vget2 ielevs c.1 c.2
  let within := isValid oelev && isValid nnElev && isValid minElevDiff && (Fl.abs (oelev - nnElev)).le minElevDiff
  if !isValid oelev || within then ok [c]
  else do
    let points := stencil nY nX radius c
    let diffs ← mapM (fun p : Int × Int => do
      let ielev ← vget2 ielevs p.1 p.2
      ok (elevDiff oelev ielev)) points
    let sorted := sort ((List.range diffs.length).zip diffs)
    if sorted.length = 0 then ok [c]
    else if min (sorted.length : Int) num < 0 then .abort
    else mapM (fun n : Nat => do
      let p ← vget sorted n
      vget points p.1) (List.range (min (sorted.length : Int) num).toNat)

/-- One point in the loop that adds up values (src/client/Downscaler/Smart.cpp:40-49). -/
def smartAdd (ifield : FieldC K) (e : Nat) (s : Fl K × Nat) (c : Int × Int) : Res (Fl K × Nat) :=
  if isValidInt c.1 && isValidInt c.2 then do
    let v ← ifield.getInt c.1 c.2 e
    ok (if isValid v then (s.1 + v, s.2 + 1) else s)
  else ok s

/-- One member of one output point (src/client/Downscaler/Smart.cpp:35-54). -/
def smartValue (ifield : FieldC K) (points : List (Int × Int)) (e : Nat) : Res (Fl K) := do
  let s ← foldM (smartAdd ifield e) (fin 0, 0) points
  ok (if 0 < s.2 then s.1 / Fl.ofNat s.2 else MV)

/-- `DownscalerSmart::downscaleCore` (src/client/Downscaler/Smart.cpp:18-60) and `getSmartNeighbours` (61-148). -/
def smartCore [HasArcC K] (sortSites : Bool → List (Site K) → List (Site K)) (sort : List (Nat × Fl K) → List (Nat × Fl K)) (radius num : Int)
    (minElevDiff : Fl K) (ilats ilons ielevs olats olons oelevs : List (List (Fl K))) (ifields ofields : List (FieldC K)) :
    Res (List (FieldC K)) := do
  let near ← treeGrid sortSites ilats ilons olats olons
  let nX ← numX ilats
  let oX ← numX olats
  let table ← grid2 olats.length oX fun i j => smartPoints sort radius num minElevDiff ilats.length nX ielevs oelevs near i j
  eachStep (fun ifield ofield => FieldC.fill ofield.nY ofield.nX ofield.nE (fun i j => vget2 table i j) (smartValue ifield) ofield) ifields ofields

end Gridpp.Client
