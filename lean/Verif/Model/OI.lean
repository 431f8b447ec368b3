import Verif.Model.Structure

/-! Model of `src/api/oi.cpp`: optimal interpolation. Matrices are lists of rows. The anonymous pair `(increment, a)` and the
pairs `(rho, index)` are those of the code, except that the pairs hold the number of the observation instead of its position
in the list of neighbours (the position is only used to look up this number). -/

namespace Gridpp
open Fl Res

section
variable {K : Type} [Field K] [LinearOrder K] [IsStrictOrderedRing K]

/-- The parts of the libraries that are used: `arma::inv` (throws `std::runtime_error` for a singular matrix) and
`std::sort` with `sort_pair_first` (oi.cpp:19-23), which orders pairs by their first entry and leaves the order of ties open.
What is required of them is in `Arma.Lawful` (Lemmas/OI.lean). The elements to sort are never NaN here, since they passed
`rhos[i] > 0`. -/
structure Arma (K : Type) where
  inv : List (List (Fl K)) → Res (List (List (Fl K)))
  sortFirst : List (Fl K × Nat) → List (Fl K × Nat)

/-- The inner product of a row and a column in an Armadillo product (`*`, for example oi.cpp:316). -/
def dot (u v : List (Fl K)) : Fl K := (List.zipWith (· * ·) u v).foldl (· + ·) 0

/-- `u * M` for a row vector `u` (oi.cpp:315). Sizes agree in the code. -/
def vecMat (u : List (Fl K)) (M : List (List (Fl K))) : List (Fl K) :=
  (List.range u.length).map fun j => dot u (M.map fun row => row.getD j nan)

/-- `arma::max`, `arma::min` of a non-empty vector without NaN (oi.cpp:319-320). -/
def armaMax (v : List (Fl K)) : Fl K := v.foldl (fun a x => if x.gt a then x else a) ninf
def armaMin (v : List (Fl K)) : Fl K := v.foldl (fun a x => if x.lt a then x else a) pinf

/-- The anti-extrapolation filter (oi.cpp:322-333). -/
def limitIncrement (inc minInc maxInc : Fl K) : Fl K :=
  if maxInc.gt 0 && inc.gt maxInc then maxInc
  else if maxInc.lt 0 && inc.gt 0 then maxInc
  else if minInc.lt 0 && inc.lt minInc then minInc
  else if minInc.gt 0 && inc.lt 0 then minInc
  else inc

/-- The usable observations among the neighbours (oi.cpp:251-258): `pbackground[index]` is only read if `pobs[index]` is
valid. -/
def oiUsable (idx : List Nat) (rhos pobs pbg : List (Fl K)) : Res (List (Fl K × Nat)) := do
  let r ← mapM (fun k : Nat => do
    let index ← vget idx (k : Int)
    let o ← vget pobs (index : Int)
    if o.isValid then do
      let b ← vget pbg (index : Int)
      if b.isValid then do
        let r ← vget rhos (k : Int)
        ok (if r.gt 0 then some (r, index) else none)
      else ok none
    else ok none) (List.range idx.length)
  ok (r.filterMap id)

/-- At most `max_points` observations (oi.cpp:260-281). -/
def oiSelect (A : Arma K) (maxPoints : Int) (u : List (Fl K × Nat)) : List (Fl K × Nat) :=
  if 0 < maxPoints ∧ maxPoints < (u.length : Int) then (A.sortFirst u).reverse.take maxPoints.toNat else u

/-- The row of observation `e` (oi.cpp:298-314): innovation `lObs(i) - lY(i)`, ratio `lR(i, i)` and `lP(i, .)`. -/
def oiRow [HasGeo K] [HasSqrt K] [HasExp K] (T : RTree K) (s : SF K) (pts : List (Point K)) (pobs pratios pbg : List (Fl K))
    (sel : List (Fl K × Nat)) (e : Fl K × Nat) : Res (Fl K × Fl K × List (Fl K)) := do
  let o ← vget pobs (e.2 : Int)
  let b ← vget pbg (e.2 : Int)
  let r ← vget pratios (e.2 : Int)
  let p1 ← vget pts (e.2 : Int)
  let p2 ← mapM (fun f : Fl K × Nat => vget pts (f.2 : Int)) sel
  let corr ← s.corrVec T p1 p2
  let row ← mapM (fun j : Nat => vget corr (j : Int)) (List.range sel.length)
  ok (o - b, r, row)

/-- `lP + lR` (oi.cpp:293-315). -/
def oiMatrix (rows : List (Fl K × Fl K × List (Fl K))) : List (List (Fl K)) :=
  rows.mapIdx fun i e => e.2.2.mapIdx fun j c => c + (if i = j then e.2.1 else 0)

/-- The increment and `a(0, 0)` (oi.cpp:315-336), from the rows. -/
def oiSolve (A : Arma K) (sel : List (Fl K × Nat)) (rows : List (Fl K × Fl K × List (Fl K))) (extrap : Bool) :
    Res (Fl K × Fl K) := do
  let N ← A.inv (oiMatrix rows)
  let lG := sel.map Prod.fst
  let w := vecMat lG N
  let d := rows.map Prod.fst
  let inc := dot w d
  ok (if extrap then inc else limitIncrement inc (armaMin d) (armaMax d), dot w lG)

/-- One iteration of the loop over the output points (oi.cpp:222-338): the values of `output[y]` and
`analysis_variance[y]` after it; they start as `background[y]` and `bvariance[y]` (198-199). -/
def oiCell [HasGeo K] [HasSqrt K] [HasExp K] (T : RTree K) (A : Arma K) (bp : Points K) (background bvar : List (Fl K))
    (points : Points K) (pts : List (Point K)) (pobs pratios pbg : List (Fl K)) (s : SF K) (maxPoints : Int) (extrap : Bool)
    (y : Nat) : Res (Fl K × Fl K) := do
  let b ← vget background (y : Int)
  let bv ← vget bvar (y : Int)
  if b.isValid then do
    let lat ← vget bp.lats (y : Int)
    let lon ← vget bp.lons (y : Int)
    let p1 ← bp.getPoint (y : Int)
    let radius ← s.locDist T p1
    let idx ← points.getNeighbours T lat lon radius true
    if idx.length = 0 then ok (b, bv)
    else do
      let p2 ← mapM (fun i : Nat => vget pts (i : Int)) idx
      let rhos ← s.corrBgVec T p1 p2
      let u ← oiUsable idx rhos pobs pbg
      let sel := oiSelect A maxPoints u
      if sel.length = 0 then ok (b, bv)
      else do
        let rows ← mapM (oiRow T s pts pobs pratios pbg sel) sel
        let r ← oiSolve A sel rows extrap
        ok (b + r.1, bv * (1 - r.2))
  else ok (b, bv)

/-- `optimal_interpolation_full` for points (oi.cpp:138-341). `var0` is what `analysis_variance` holds before the call;
the result is (analysis, analysis_variance). The iterations of the parallel loop write separate elements; an exception that
leaves an iteration ends the program. -/
def oiFullPoints [HasGeo K] [HasSqrt K] [HasExp K] (T : RTree K) (A : Arma K) (bp : Points K) (background bvar : List (Fl K))
    (points : Points K) (pobs obsVar pbg bvarAt : List (Fl K)) (s : SF K) (maxPoints : Int) (var0 : List (Fl K))
    (extrap : Bool) : Res (List (Fl K) × List (Fl K)) :=
  if maxPoints < 0 then throw .invalidArgument
  else if bp.type ≠ points.type then throw .invalidArgument
  else if background.length ≠ bp.size then throw .invalidArgument
  else if background.length ≠ bvar.length then throw .invalidArgument
  else if pobs.length ≠ points.size then throw .invalidArgument
  else if obsVar.length ≠ points.size then throw .invalidArgument
  else if bvarAt.length ≠ points.size then throw .invalidArgument
  else if points.size = 0 then ok (background, var0)
  else do
    let pratios ← mapM (fun i : Nat => do
      let a ← vget obsVar (i : Int)
      let b ← vget bvarAt (i : Int)
      ok (a / b)) (List.range points.size)
    let pts ← mapM (fun i : Nat => points.getPoint (i : Int)) (List.range points.size)
    let cells ← Res.omp (mapM (oiCell T A bp background bvar points pts pobs pratios pbg s maxPoints extrap)
      (List.range background.length))
    ok (cells.map Prod.fst, cells.map Prod.snd)

/-- `optimal_interpolation` for points (oi.cpp:89-136). -/
def oiPoints [HasGeo K] [HasSqrt K] [HasExp K] (T : RTree K) (A : Arma K) (bp : Points K) (background : List (Fl K))
    (points : Points K) (pobs pratios pbg : List (Fl K)) (s : SF K) (maxPoints : Int) (extrap : Bool) : Res (List (Fl K)) :=
  if maxPoints < 0 then throw .invalidArgument
  else if bp.type ≠ points.type then throw .invalidArgument
  else if background.length ≠ bp.size then throw .invalidArgument
  else if pobs.length ≠ points.size then throw .invalidArgument
  else if pratios.length ≠ points.size then throw .invalidArgument
  else do
    let r ← oiFullPoints T A bp background (List.replicate background.length 1) points pobs pratios pbg
      (List.replicate pratios.length 1) s maxPoints [] extrap
    ok r.1

/-- The check of the background size (oi.cpp:44-48, 362-366): the message reads `background[0]`. -/
def oiCheckSize (g : Grid K) (background : List (List (Fl K))) : Res (Nat × Nat) := do
  let s ← g.size
  let row ← vget background 0
  if background.length ≠ s.1 ∨ row.length ≠ s.2 then throw .invalidArgument
  else ok (background.length, row.length)

/-- Copying a one-dimensional result into rows (oi.cpp:77-84, 402-410). -/
def unflatten (nY nX : Nat) (v : List (Fl K)) : Res (List (List (Fl K))) :=
  grid2 nY nX fun y x => vget v (y * (nX : Int) + x)

/-- `optimal_interpolation` for grids (oi.cpp:26-87). `to_points` constructs `bpoints` in place (copy elision; the copy
constructor would change the coordinate type, see C19). -/
def oiGrid [HasGeo K] [HasSqrt K] [HasExp K] (T : RTree K) (A : Arma K) (g : Grid K) (background : List (List (Fl K)))
    (points : Points K) (pobs pratios pbg : List (Fl K)) (s : SF K) (maxPoints : Int) (extrap : Bool) :
    Res (List (List (Fl K))) :=
  if maxPoints < 0 then throw .invalidArgument
  else if g.type ≠ points.type then throw .invalidArgument
  else do
    let n ← oiCheckSize g background
    if pobs.length ≠ points.size then throw .invalidArgument
    else if pratios.length ≠ points.size then throw .invalidArgument
    else if pbg.length ≠ points.size then throw .invalidArgument
    else do
      let bp ← g.toPoints
      let b1 ← grid2 n.1 n.2 (fun y x => vget2 background y x)
      let o1 ← oiPoints T A bp b1.flatten points pobs pratios pbg s maxPoints extrap
      unflatten n.1 n.2 o1

/-- `optimal_interpolation_full` for grids (oi.cpp:342-412). `analysis_variance1` starts empty (397). -/
def oiFullGrid [HasGeo K] [HasSqrt K] [HasExp K] (T : RTree K) (A : Arma K) (g : Grid K) (background bvar : List (List (Fl K)))
    (points : Points K) (pobs obsVar pbg bvarAt : List (Fl K)) (s : SF K) (maxPoints : Int) (extrap : Bool) :
    Res (List (List (Fl K)) × List (List (Fl K))) :=
  if maxPoints < 0 then throw .invalidArgument
  else if g.type ≠ points.type then throw .invalidArgument
  else do
    let n ← oiCheckSize g background
    if pobs.length ≠ points.size then throw .invalidArgument
    else if obsVar.length ≠ points.size then throw .invalidArgument
    else if pbg.length ≠ points.size then throw .invalidArgument
    else do
      let bp ← g.toPoints
      let b1 ← grid2 n.1 n.2 (fun y x => vget2 background y x)
      let v1 ← grid2 n.1 n.2 (fun y x => vget2 bvar y x)
      let r ← oiFullPoints T A bp b1.flatten v1.flatten points pobs obsVar pbg bvarAt s maxPoints [] extrap
      let out ← unflatten n.1 n.2 r.1
      let var ← unflatten n.1 n.2 r.2
      ok (out, var)

end
end Gridpp
