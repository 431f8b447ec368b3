import Verif.Model.OI
import Verif.Model.Fill
import Verif.Model.Util

/-! Model of `src/api/oi_ensi.cpp` and `src/api/oi_ensi_multi.cpp`: ensemble-based optimal interpolation. Matrices are lists of
rows. Debug output and the counters of warnings are left out. -/

namespace Gridpp
open Fl Res

section
variable {K : Type} [Field K] [LinearOrder K] [IsStrictOrderedRing K]

/-- The further parts of Armadillo that are used: `arma::rcond`, and `arma::eig_sym`, which gives eigenvalues and a matrix
whose columns are eigenvectors, or fails (`none`; both results are then empty). -/
structure ArmaE (K : Type) extends Arma K where
  rcond : List (List (Fl K)) → Fl K
  eigSym : List (List (Fl K)) → Option (List (Fl K) × List (List (Fl K)))

/-! ### Armadillo matrices -/

/-- The element in row `i` and column `j` of a matrix that has it. -/
def ent (M : List (List (Fl K))) (i j : Nat) : Fl K := (M.getD i []).getD j nan

/-- The `m x n` matrix with elements `f i j`. -/
def tab (m n : Nat) (f : Nat → Nat → Fl K) : List (List (Fl K)) :=
  (List.range m).map fun i => (List.range n).map fun j => f i j

/-- The sum of `f 0 .. f (n - 1)`, from the left. -/
def sumTo (n : Nat) (f : Nat → Fl K) : Fl K := (List.range n).foldl (fun a k => a + f k) 0

/-- The product of an `m x k` and a `k x n` matrix (`*` of Armadillo). -/
def mmul (m k n : Nat) (A B : List (List (Fl K))) : List (List (Fl K)) :=
  tab m n fun i j => sumTo k fun l => ent A i l * ent B l j

/-! ### Parts that are textually repeated in the four functions -/

/-- `calc_statistic(array, Mean)` (util.cpp:20-42), see `calcStatistic`. -/
def meanStat (array : List (Fl K)) : Fl K :=
  let t := sumCount array
  if 0 < t.2 then t.1 / Fl.ofNat t.2 else MV

/-- `calc_statistic(array, Std)` (util.cpp:44-79), see `calcStatistic`. -/
def stdStat [HasSqrt K] (array : List (Fl K)) : Fl K := Fl.sqrt (calcVariance array)

/-- Does member `e` have a valid value in each of the given rows (oi_ensi.cpp:191-197; oi_ensi_multi.cpp:400-413, 692-703,
934-947)? -/
def memberValid (rows : List (List (Fl K))) (e : Nat) : Res Bool := do
  let bs ← mapM (fun r => do
    let v ← vget r (e : Int)
    ok v.isValid) rows
  ok (bs.all id)

/-- `validEns` (oi_ensi.cpp:187-201; oi_ensi_multi.cpp:395-417, 687-707, 929-951). -/
def validMembers (nEns : Nat) (rows : List (List (Fl K))) : Res (List Nat) := do
  let bs ← mapM (fun e : Nat => do
    let b ← memberValid rows e
    ok (if b then some e else none)) (List.range nEns)
  ok (bs.filterMap id)

/-- The usable observations among the neighbours (oi_ensi.cpp:231-238; oi_ensi_multi.cpp:478-485, 743-750, 1028-1035):
`obs i` is the value whose validity is looked at. The pairs hold the number of the observation instead of its position in the
list of neighbours. -/
def ensiUsable (idx : List Nat) (rhos : List (Fl K)) (obs : Nat → Res (Fl K)) : Res (List (Fl K × Nat)) := do
  let r ← mapM (fun k : Nat => do
    let index ← vget idx (k : Int)
    let o ← obs index
    if o.isValid then do
      let r ← vget rhos (k : Int)
      ok (if r.gt 0 then some (r, index) else none)
    else ok none) (List.range idx.length)
  ok (r.filterMap id)

/-- The observations used at output point `y`, with their correlations: `lLocIndices` and `lRhos` (oi_ensi.cpp:208-269;
oi_ensi_multi.cpp:453-516, 717-781, 1002-1066). No observations: the background is kept. -/
def ensiSelect [HasGeo K] [HasSqrt K] [HasExp K] (T : RTree K) (A : Arma K) (bp points : Points K) (pts : List (Point K)) (s : SF K)
    (maxPoints : Int) (obs : Nat → Res (Fl K)) (y : Nat) : Res (List (Fl K × Nat)) := do
  let lat ← vget bp.lats (y : Int)
  let lon ← vget bp.lons (y : Int)
  let p1 ← bp.getPoint (y : Int)
  let radius ← s.locDist T p1
  let idx ← points.getNeighbours T lat lon radius true
  if idx.length = 0 then ok []
  else do
    let p2 ← mapM (fun i : Nat => vget pts (i : Int)) idx
    let rhos ← s.corrBgVec T p1 p2
    let u ← ensiUsable idx rhos obs
    ok (oiSelect A maxPoints u)

/-- `output[y][validEns[e]] = ...` for all `e` (oi_ensi.cpp:553; oi_ensi_multi.cpp:610-613, 853-856, 1296). -/
def writeMembers (row : List (Fl K)) (members : List Nat) (vals : List (Fl K)) : Res (List (Fl K)) :=
  foldM (fun (row : List (Fl K)) (e : Nat × Fl K) => vset row (e.1 : Int) e.2) row (members.zip vals)

/-! ### optimal_interpolation_ensi -/

/-- What is used of one selected observation: `lObs(i)`, `Rinv(i, i)`, `lYhat(i)`, the row `lY(i, .)` and the row that enters
the transform (`lY(i, .)` again in `optimal_interpolation_ensi`, `lY_corr(i, .)` in the variant `utem`). -/
structure EnsiObs (K : Type) where
  obs : Fl K
  rinv : Fl K
  yhat : Fl K
  y : List (Fl K)
  z : List (Fl K)

/-- The row of `gY` and the element of `gYhat` for one observation (oi_ensi.cpp:169-178). The elements of `gY[i]` from `nEns`
on are not used later and left out. -/
def ensiPerturb (nEns : Nat) (row : List (Fl K)) : Res (List (Fl K) × Fl K) := do
  let mean := meanStat row
  let r ← mapM (fun e : Nat => do
    let v ← vget row (e : Int)
    ok (if v.isValid && mean.isValid then v - mean else v)) (List.range nEns)
  ok (r, mean)

/-- One selected observation (oi_ensi.cpp:274-302). -/
def ensiRow (members : List Nat) (pobs psigmas : List (Fl K)) (gY : List (List (Fl K) × Fl K)) (e : Fl K × Nat) : Res (EnsiObs K) := do
  let o ← vget pobs (e.2 : Int)
  let g ← vget gY (e.2 : Int)
  let y ← mapM (fun ei : Nat => vget g.1 (ei : Int)) members
  let sg ← vget psigmas (e.2 : Int)
  ok ⟨o, e.1 / (sg * sg), g.2, y, y⟩

/-- `C` (oi_ensi.cpp:379-380; oi_ensi_multi.cpp:1099-1100). -/
def ensiC (n : Nat) (rows : List (EnsiObs K)) : List (List (Fl K)) :=
  tab n rows.length fun e i => sumTo rows.length fun l =>
    ent (rows.map EnsiObs.z) l e * (if l = i then (rows.map EnsiObs.rinv).getD i nan else 0)

/-- `Pinv` (oi_ensi.cpp:382-385; oi_ensi_multi.cpp:1102-1105). -/
def ensiPinv (n : Nat) (rows : List (EnsiObs K)) (diag : Fl K) : List (List (Fl K)) :=
  tab n n fun e f => (sumTo rows.length fun i => ent (ensiC n rows) e i * ent (rows.map EnsiObs.z) i f) + (if e = f then diag else 0)

/-- `eigvec * diagmat(sqrt(eigval)) * eigvec.t()` (oi_ensi.cpp:419-421; oi_ensi_multi.cpp:1139-1141). -/
def ensiW [HasSqrt K] (n : Nat) (lam : List (Fl K)) (V : List (List (Fl K))) : List (List (Fl K)) :=
  tab n n fun e f => sumTo n fun k => (sumTo n fun j => ent V e j * (if j = k then Fl.sqrt (lam.getD j nan) else 0)) * ent V f k

/-- `w` (oi_ensi.cpp:428-437; oi_ensi_multi.cpp:1148-1157). -/
def ensiWeights (n : Nat) (rows : List (EnsiObs K)) (P : List (List (Fl K))) : List (Fl K) :=
  (List.range n).map fun e => sumTo rows.length fun i =>
    ent (mmul n n rows.length P (ensiC n rows)) e i * ((rows.map fun r => r.obs - r.yhat).getD i nan)

/-- `W` and `w` from the result of `eig_sym`, or `none` if `W` has no rows (oi_ensi.cpp:419-437). -/
def ensiFactor [HasSqrt K] (n : Nat) (rows : List (EnsiObs K)) (P : List (List (Fl K))) :
    Option (List (Fl K) × List (List (Fl K))) → Option (List (List (Fl K)) × List (Fl K))
  | none => none
  | some (lam, V) => if V.length = 0 then none else some (ensiW n lam V, ensiWeights n rows P)

/-- `W` (before `w` is added) and `w`, or `none` if the background is kept (oi_ensi.cpp:377-437; oi_ensi_multi.cpp:1097-1157).
`diag` is `nValidEns - 1` in `optimal_interpolation_ensi` and 1 in the variant `utem`. -/
def ensiTransform [HasSqrt K] (A : ArmaE K) (n : Nat) (rows : List (EnsiObs K)) (diag : Fl K) :
    Res (Option (List (List (Fl K)) × List (Fl K))) := do
  let Pinv := ensiPinv n rows diag
  if (A.rcond Pinv).le 0 then ok none
  else do
    let P ← A.inv Pinv
    ok (ensiFactor n rows P (A.eigSym (tab n n fun e f => Fl.ofInt ((n : Int) - 1) * ent P e f)))

/-- `lY[e]` (oi_ensi.cpp:523-524; oi_ensi_multi.cpp:1266-1267): Armadillo's index of one element of the matrix, which is stored
by columns. -/
def ensiElement (rows : List (EnsiObs K)) (e : Nat) : Fl K := ent (rows.map EnsiObs.y) (e % rows.length) (e / rows.length)

/-- The anti-extrapolation filter (oi_ensi.cpp:520-552; oi_ensi_multi.cpp:1263-1295): `x` is `X(e)` and `inc` `currIncrement`. -/
def ensiLimit (rows : List (EnsiObs K)) (e : Nat) (x inc : Fl K) : Fl K :=
  let d := rows.map fun r => r.obs - (ensiElement rows e + r.yhat)
  let maxInc := armaMax d
  let minInc := armaMin d
  let member := inc - x
  if maxInc.gt 0 && member.gt maxInc then maxInc + x
  else if maxInc.lt 0 && member.gt 0 then 0 + x
  else if minInc.lt 0 && member.lt minInc then minInc + x
  else if minInc.gt 0 && member.lt 0 then 0 + x
  else inc

/-- The new value of member number `e` of the valid ones (oi_ensi.cpp:507-553): `X` are the perturbations. -/
def ensiMember (rows : List (EnsiObs K)) (extrap : Bool) (mean : Fl K) (X : List (Fl K)) (W : Nat → Nat → Fl K) (e : Nat) : Fl K :=
  let inc := sumTo X.length fun k => X.getD k nan * W k e
  mean + (if extrap then inc else ensiLimit rows e (X.getD e nan) inc)

/-- The new values of the valid members (oi_ensi.cpp:439-554), if there is a transform. The values are valid, because the
members are: `count` is `nValidEns`, and all elements of `X` are set. -/
def ensiUpdate (row : List (Fl K)) (members : List Nat) (rows : List (EnsiObs K)) (extrap : Bool) :
    Option (List (List (Fl K)) × List (Fl K)) → Res (List (Fl K))
  | none => ok row
  | some (W, w) => do
    let vals ← mapM (fun ei : Nat => vget row (ei : Int)) members
    let mean := (sumTo vals.length fun k => vals.getD k nan) / Fl.ofNat vals.length
    let X := vals.map fun v => v - mean
    writeMembers row members
      ((List.range members.length).map (ensiMember rows extrap mean X fun k e => ent W k e + w.getD k nan))

/-- One iteration of the loop over the output points (oi_ensi.cpp:207-555): `output[y]` after it. -/
def ensiCell [HasGeo K] [HasSqrt K] [HasExp K] (T : RTree K) (A : ArmaE K) (bp points : Points K) (pts : List (Point K)) (s : SF K)
    (maxPoints : Int) (extrap : Bool) (background : List (List (Fl K))) (pobs psigmas : List (Fl K))
    (gY : List (List (Fl K) × Fl K)) (members : List Nat) (y : Nat) : Res (List (Fl K)) := do
  let row ← vget background (y : Int)
  let sel ← ensiSelect T A.toArma bp points pts s maxPoints (fun i => vget pobs (i : Int)) y
  if sel.length = 0 then ok row
  else do
    let rows ← mapM (ensiRow members pobs psigmas gY) sel
    let t ← ensiTransform A members.length rows (Fl.ofInt ((members.length : Int) - 1))
    ensiUpdate row members rows extrap t

/-- `optimal_interpolation_ensi` for points (oi_ensi.cpp:111-568). -/
def ensiPoints [HasGeo K] [HasSqrt K] [HasExp K] (T : RTree K) (A : ArmaE K) (bp : Points K) (background : List (List (Fl K)))
    (points : Points K) (pobs psigmas : List (Fl K)) (pbg : List (List (Fl K))) (s : SF K) (maxPoints : Int) (extrap : Bool) :
    Res (List (List (Fl K))) :=
  if maxPoints < 0 then throw .invalidArgument
  else if bp.type ≠ points.type then throw .invalidArgument
  else if background.length ≠ bp.size then throw .invalidArgument
  else if pobs.length ≠ points.size then throw .invalidArgument
  else if psigmas.length ≠ points.size then throw .invalidArgument
  else if pbg.length ≠ points.size then throw .invalidArgument
  else if points.size = 0 then ok background
  else do
    let r0 ← vget background 0
    let gY ← mapM (ensiPerturb r0.length) pbg
    let pts ← mapM (fun i : Nat => points.getPoint (i : Int)) (List.range points.size)
    let members ← validMembers r0.length background
    mapM (ensiCell T A bp points pts s maxPoints extrap background pobs psigmas gY members) (List.range background.length)

/-- The copy of a `vec3` into a `vec2` (oi_ensi.cpp:84-93; oi_ensi_multi.cpp:110-119, 200-208, 302-311). -/
def flatten3 (nY nX nE : Nat) (v : List (List (List (Fl K)))) : Res (List (List (Fl K))) := do
  let r ← grid2 nY nX (fun y x => do
    let c ← vget2 v y x
    mapM (fun e : Nat => vget c (e : Int)) (List.range nE))
  ok r.flatten

/-- The copy of the result into a `vec3` (oi_ensi.cpp:95-105; oi_ensi_multi.cpp:123-132, 212-221, 315-324). -/
def unflatten3 (nY nX nE : Nat) (v : List (List (Fl K))) : Res (List (List (List (Fl K)))) :=
  grid2 nY nX (fun y x => do
    let c ← vget v (y * (nX : Int) + x)
    mapM (fun e : Nat => vget c (e : Int)) (List.range nE))

/-- `optimal_interpolation_ensi` for grids (oi_ensi.cpp:33-109). The message of the check of the background size reads
`background[0]`. -/
def ensiGrid [HasGeo K] [HasSqrt K] [HasExp K] (T : RTree K) (A : ArmaE K) (g : Grid K) (background : List (List (List (Fl K))))
    (points : Points K) (pobs psigmas : List (Fl K)) (pbg : List (List (Fl K))) (s : SF K) (maxPoints : Int) (extrap : Bool) :
    Res (List (List (List (Fl K)))) :=
  if maxPoints < 0 then throw .invalidArgument
  else if points.size = 0 then ok background
  else do
    let n ← g.size
    if n.1 = 0 ∨ n.2 = 0 then throw .invalidArgument
    else if g.type ≠ points.type then throw .invalidArgument
    else do
      let b0 ← vget background 0
      if background.length ≠ n.1 ∨ b0.length ≠ n.2 then throw .invalidArgument
      else do
        let b00 ← vget b0 0
        if pobs.length ≠ points.size then throw .invalidArgument
        else if psigmas.length ≠ points.size then throw .invalidArgument
        else do
          let p0 ← vget pbg 0
          if b00.length ≠ p0.length then throw .invalidArgument
          else do
            let bp ← g.toPoints
            let b1 ← flatten3 n.1 n.2 b00.length background
            let o1 ← ensiPoints T A bp b1 points pobs psigmas pbg s maxPoints extrap
            unflatten3 n.1 n.2 b00.length o1

/-! ### optimal_interpolation_ensi_multi: ebe, ebesc -/

/-- `default_min_std` (oi_ensi_multi.cpp:361, 894). -/
def minStd : Fl K := fin (13 / 10000)

/-- Standardized values (oi_ensi_multi.cpp:429-444, 530-535, 979-994): 0 if the standard deviation is at most `minStd` or
missing. -/
def standardize [HasSqrt K] (vals : List (Fl K)) : List (Fl K) :=
  let mean := meanStat vals
  let std := stdStat vals
  if mean.isValid && std.isValid && std.gt minStd then
    vals.map fun v => 1 / Fl.sqrt (Fl.ofInt ((vals.length : Int) - 1)) * (v - mean) / std
  else vals.map fun _ => 0

/-- The row `lInnov(i, .)` (oi_ensi_multi.cpp:554-558, 804-807): it has as many columns as there are valid members, but is
indexed with the number of the member among all members; the index of `operator()` is checked by Armadillo, which throws
`std::logic_error`. The right-hand side is evaluated first here. -/
def multiInnov (members : List Nat) (obs pb : List (Fl K)) : Res (List (Fl K)) :=
  foldM (fun (row : List (Fl K)) (ei : Nat) => do
    let o ← vget obs (ei : Int)
    let b ← vget pb (ei : Int)
    if ei < members.length then vset row (ei : Int) (o - b) else throw .logicError) (List.replicate members.length 0) members

/-- What is used of one selected observation: its correlation with the output point, `lR_dd(i, i)`, `lZ_R(i, .)` (empty in the
variant `ebesc`), `lInnov(i, .)` and the row `lLoc2D(i, .)` or `lCorr2D(i, .)`. -/
structure MultiObs (K : Type) where
  rho : Fl K
  ratio : Fl K
  z : List (Fl K)
  innov : List (Fl K)
  corr : List (Fl K)

/-- One selected observation (oi_ensi_multi.cpp:546-568, 796-817). `z` gives the row of `gZ_R`. -/
def multiRow [HasGeo K] [HasSqrt K] [HasExp K] (T : RTree K) (s : SF K) (pts : List (Point K)) (members : List Nat)
    (pobs : List (List (Fl K))) (pratios : List (Fl K)) (pbg : List (List (Fl K))) (z : Nat → Res (List (Fl K)))
    (sel : List (Fl K × Nat)) (e : Fl K × Nat) : Res (MultiObs K) := do
  let r ← vget pratios (e.2 : Int)
  let zr ← z e.2
  let o ← vget pobs (e.2 : Int)
  let b ← vget pbg (e.2 : Int)
  let inn ← multiInnov members o b
  let p1 ← vget pts (e.2 : Int)
  let p2 ← mapM (fun f : Fl K × Nat => vget pts (f.2 : Int)) sel
  let corr ← s.corrVec T p1 p2
  let row ← mapM (fun j : Nat => vget corr (j : Int)) (List.range sel.length)
  ok ⟨e.1, r, zr, inn, row⟩

/-- The anti-extrapolation filter (oi_ensi_multi.cpp:586-605, 829-848). -/
def multiLimit (inc minInc maxInc : Fl K) : Fl K :=
  if maxInc.gt 0 && inc.gt maxInc then maxInc
  else if maxInc.lt 0 && inc.gt 0 then 0
  else if minInc.lt 0 && inc.lt minInc then minInc
  else if minInc.gt 0 && inc.lt 0 then 0
  else inc

/-- The increments of the valid members (oi_ensi_multi.cpp:576-607, 819-850): `lr` is the row of correlations with the output
point, `R` the correlations between the observations. -/
def multiIncrements (A : Arma K) (n : Nat) (rows : List (MultiObs K)) (lr : List (Fl K)) (R : List (List (Fl K))) (bratio : Fl K)
    (extrap : Bool) : Res (List (Fl K)) := do
  let m := rows.length
  let N ← A.inv (tab m m fun i j => ent R i j + (if i = j then (rows.map MultiObs.ratio).getD i nan else 0))
  let k := (List.range m).map fun j => sumTo m fun i => lr.getD i nan * ent N i j
  let col := fun e : Nat => (rows.map fun r => r.innov.getD e nan)
  ok ((List.range n).map fun e =>
    let inc := bratio * (sumTo m fun i => k.getD i nan * (col e).getD i nan)
    if extrap then inc else multiLimit inc (armaMin (col e)) (armaMax (col e)))

/-- The analysis (oi_ensi_multi.cpp:610-613, 853-856). -/
def multiWrite (row : List (Fl K)) (members : List Nat) (dx : List (Fl K)) : Res (List (Fl K)) := do
  let vals ← mapM (fun ei : Nat => vget row (ei : Int)) members
  writeMembers row members (List.zipWith (· + ·) vals dx)

/-- One iteration of the loop over the output points in `ebesc` (oi_ensi_multi.cpp:715-857). -/
def ebescCell [HasGeo K] [HasSqrt K] [HasExp K] (T : RTree K) (A : Arma K) (bp points : Points K) (pts : List (Point K)) (s : SF K)
    (maxPoints : Int) (extrap : Bool) (bratios : List (Fl K)) (background pobs : List (List (Fl K))) (pratios : List (Fl K))
    (pbg : List (List (Fl K))) (members : List Nat) (y : Nat) : Res (List (Fl K)) := do
  let row ← vget background (y : Int)
  let br ← vget bratios (y : Int)
  let sel ← ensiSelect T A bp points pts s maxPoints (fun i => vget2 pobs (i : Int) 0) y
  if sel.length = 0 then ok row
  else do
    let rows ← mapM (multiRow T s pts members pobs pratios pbg (fun _ => ok []) sel) sel
    let dx ← multiIncrements A members.length rows (rows.map MultiObs.rho) (rows.map MultiObs.corr) br extrap
    multiWrite row members dx

/-- The loop of `ebesc` over the output points, unless there is no valid member (oi_ensi_multi.cpp:708-858). -/
def ebescLoop [HasGeo K] [HasSqrt K] [HasExp K] (T : RTree K) (A : Arma K) (bp points : Points K) (pts : List (Point K)) (s : SF K)
    (maxPoints : Int) (extrap : Bool) (bratios : List (Fl K)) (background pobs : List (List (Fl K))) (pratios : List (Fl K))
    (pbg : List (List (Fl K))) (members : List Nat) : Res (List (List (Fl K))) :=
  if members.length = 0 then ok background
  else mapM (ebescCell T A bp points pts s maxPoints extrap bratios background pobs pratios pbg members) (List.range background.length)

/-- `optimal_interpolation_ensi_multi_ebesc` for points (oi_ensi_multi.cpp:630-859). -/
def ebescPoints [HasGeo K] [HasSqrt K] [HasExp K] (T : RTree K) (A : Arma K) (bp : Points K) (bratios : List (Fl K))
    (background : List (List (Fl K))) (points : Points K) (pobs : List (List (Fl K))) (pratios : List (Fl K))
    (pbg : List (List (Fl K))) (s : SF K) (maxPoints : Int) (extrap : Bool) : Res (List (List (Fl K))) :=
  if maxPoints < 0 then throw .invalidArgument
  else if bp.type ≠ points.type then throw .invalidArgument
  else if background.length ≠ bp.size then throw .invalidArgument
  else if bratios.length ≠ bp.size then throw .invalidArgument
  else if pobs.length ≠ points.size then throw .invalidArgument
  else if pratios.length ≠ points.size then throw .invalidArgument
  else if pbg.length ≠ points.size then throw .invalidArgument
  else if points.size = 0 then ok background
  else do
    let r0 ← vget background 0
    let pts ← mapM (fun i : Nat => points.getPoint (i : Int)) (List.range points.size)
    let members ← validMembers r0.length (background ++ pbg)
    ebescLoop T A bp points pts s maxPoints extrap bratios background pobs pratios pbg members

/-- A row of `gZ_R`, `gY` or `gY_corr` is written (oi_ensi_multi.cpp:431-442, 967-994): these have as many rows as there are output
points, but are indexed with the number of the observation. There is at least one valid member. -/
def obsRow (nY i : Nat) (r : List (Fl K)) : Res (List (Fl K)) := if i < nY then ok r else ub

/-- `gZ_R` (oi_ensi_multi.cpp:422-445): the rows that are set. -/
def ebeZ [HasSqrt K] (nY : Nat) (members : List Nat) (pbgc : List (List (Fl K))) : Res (List (List (Fl K))) :=
  mapM (fun i : Nat => do
    let r ← vget pbgc (i : Int)
    let vals ← mapM (fun ei : Nat => vget r (ei : Int)) members
    obsRow nY i (standardize vals)) (List.range pbgc.length)

/-- One iteration of the loop over the output points in `ebe` (oi_ensi_multi.cpp:451-625). -/
def ebeCell [HasGeo K] [HasSqrt K] [HasExp K] (T : RTree K) (A : Arma K) (bp points : Points K) (pts : List (Point K)) (s : SF K)
    (maxPoints : Int) (extrap : Bool) (bratios : List (Fl K)) (background backgroundc pobs : List (List (Fl K)))
    (pratios : List (Fl K)) (pbg gZ : List (List (Fl K))) (members : List Nat) (y : Nat) : Res (List (Fl K)) := do
  let row ← vget background (y : Int)
  let br ← vget bratios (y : Int)
  let sel ← ensiSelect T A bp points pts s maxPoints (fun i => vget2 pobs (i : Int) 0) y
  if sel.length = 0 then ok row
  else do
    let rowc ← vget backgroundc (y : Int)
    let vals ← mapM (fun ei : Nat => vget rowc (ei : Int)) members
    let X := standardize vals
    let n := members.length
    let rows ← mapM (multiRow T s pts members pobs pratios pbg (fun i => vget gZ (i : Int)) sel) sel
    let Z := rows.map MultiObs.z
    let lr := (List.range rows.length).map fun i => (rows.map MultiObs.rho).getD i nan * (sumTo n fun e => X.getD e nan * ent Z i e)
    let R := tab rows.length rows.length fun i j => ent (rows.map MultiObs.corr) i j * (sumTo n fun e => ent Z i e * ent Z j e)
    let dx ← multiIncrements A n rows lr R br extrap
    multiWrite row members dx

/-- `gZ_R` and the loop of `ebe` over the output points, unless there is no valid member (oi_ensi_multi.cpp:418-626). -/
def ebeLoop [HasGeo K] [HasSqrt K] [HasExp K] (T : RTree K) (A : Arma K) (bp points : Points K) (pts : List (Point K)) (s : SF K)
    (maxPoints : Int) (extrap : Bool) (bratios : List (Fl K)) (background backgroundc pobs : List (List (Fl K)))
    (pratios : List (Fl K)) (pbg pbgc : List (List (Fl K))) (members : List Nat) : Res (List (List (Fl K))) :=
  if members.length = 0 then ok background
  else do
    let gZ ← ebeZ background.length members pbgc
    mapM (ebeCell T A bp points pts s maxPoints extrap bratios background backgroundc pobs pratios pbg gZ members)
      (List.range background.length)

/-- `optimal_interpolation_ensi_multi_ebe` for points (oi_ensi_multi.cpp:329-627). -/
def ebePoints [HasGeo K] [HasSqrt K] [HasExp K] (T : RTree K) (A : Arma K) (bp : Points K) (bratios : List (Fl K))
    (background backgroundc : List (List (Fl K))) (points : Points K) (pobs : List (List (Fl K))) (pratios : List (Fl K))
    (pbg pbgc : List (List (Fl K))) (s : SF K) (maxPoints : Int) (extrap : Bool) : Res (List (List (Fl K))) :=
  if maxPoints < 0 then throw .invalidArgument
  else if bp.type ≠ points.type then throw .invalidArgument
  else if background.length ≠ bp.size then throw .invalidArgument
  else if backgroundc.length ≠ bp.size then throw .invalidArgument
  else if bratios.length ≠ bp.size then throw .invalidArgument
  else if pobs.length ≠ points.size then throw .invalidArgument
  else if pratios.length ≠ points.size then throw .invalidArgument
  else if pbg.length ≠ points.size then throw .invalidArgument
  else if pbgc.length ≠ points.size then throw .invalidArgument
  else if points.size = 0 then ok background
  else do
    let r0 ← vget background 0
    let pts ← mapM (fun i : Nat => points.getPoint (i : Int)) (List.range points.size)
    let members ← validMembers r0.length (background ++ backgroundc ++ pbg ++ pbgc)
    ebeLoop T A bp points pts s maxPoints extrap bratios background backgroundc pobs pratios pbg pbgc members

/-! ### optimal_interpolation_ensi_multi: utem -/

/-- The rows of `gY` and `gY_corr` and the element of `gYhat` for one observation (oi_ensi_multi.cpp:960-995). -/
def utemPerturb [HasSqrt K] (nY : Nat) (members : List Nat) (pbg pbgc : List (List (Fl K))) (i : Nat) :
    Res (List (Fl K) × List (Fl K) × Fl K) := do
  let r ← vget pbg (i : Int)
  let rc ← vget pbgc (i : Int)
  let vals ← mapM (fun ei : Nat => vget r (ei : Int)) members
  let valsc ← mapM (fun ei : Nat => vget rc (ei : Int)) members
  let mean := meanStat vals
  let y ← obsRow nY i (vals.map fun v => if mean.isValid then v - mean else 0)
  let z ← obsRow nY i (standardize valsc)
  ok (y, z, mean)

/-- One selected observation (oi_ensi_multi.cpp:1068-1095). -/
def utemRow (pobs pratios : List (Fl K)) (gY : List (List (Fl K) × List (Fl K) × Fl K)) (e : Fl K × Nat) : Res (EnsiObs K) := do
  let o ← vget pobs (e.2 : Int)
  let g ← vget gY (e.2 : Int)
  let r ← vget pratios (e.2 : Int)
  ok ⟨o, e.1 / r, g.2.2, g.1, g.2.1⟩

/-- The perturbations `X_corr` (oi_ensi_multi.cpp:1187-1198). -/
def utemX [HasSqrt K] (valsc : List (Fl K)) : List (Fl K) :=
  let meanc := (sumTo valsc.length fun k => valsc.getD k nan) / Fl.ofNat valsc.length
  let stdc := stdStat valsc
  valsc.map fun v => if stdc.le minStd then 0 else 1 / Fl.sqrt (Fl.ofInt ((valsc.length : Int) - 1)) * (v - meanc) / stdc

/-- The new value of member number `e` of the valid ones (oi_ensi_multi.cpp:1249-1296): as `ensiMember`, but the increment is
made from `X_corr`. -/
def utemMember (rows : List (EnsiObs K)) (extrap : Bool) (mean : Fl K) (X Xc : List (Fl K)) (W : Nat → Nat → Fl K) (e : Nat) : Fl K :=
  let inc := sumTo Xc.length fun k => Xc.getD k nan * W k e
  mean + (if extrap then inc else ensiLimit rows e (X.getD e nan) inc)

/-- The new values of the valid members (oi_ensi_multi.cpp:1159-1297), if there is a transform. -/
def utemUpdate [HasSqrt K] (row rowc : List (Fl K)) (members : List Nat) (rows : List (EnsiObs K)) (bratio : Fl K) (extrap : Bool) :
    Option (List (List (Fl K)) × List (Fl K)) → Res (List (Fl K))
  | none => ok row
  | some (W, w) => do
    let vals ← mapM (fun ei : Nat => vget row (ei : Int)) members
    let valsc ← mapM (fun ei : Nat => vget rowc (ei : Int)) members
    let mean := (sumTo vals.length fun k => vals.getD k nan) / Fl.ofNat vals.length
    let std := stdStat vals
    writeMembers row members
      ((List.range members.length).map (utemMember rows extrap mean (vals.map fun v => v - mean) (utemX valsc)
        fun k e => std * ent W k e + bratio * w.getD k nan))

/-- One iteration of the loop over the output points in `utem` (oi_ensi_multi.cpp:1000-1298). -/
def utemCell [HasGeo K] [HasSqrt K] [HasExp K] (T : RTree K) (A : ArmaE K) (bp points : Points K) (pts : List (Point K)) (s : SF K)
    (maxPoints : Int) (extrap : Bool) (bratios : List (Fl K)) (background backgroundc : List (List (Fl K))) (pobs pratios : List (Fl K))
    (gY : List (List (Fl K) × List (Fl K) × Fl K)) (members : List Nat) (y : Nat) : Res (List (Fl K)) := do
  let row ← vget background (y : Int)
  let rowc ← vget backgroundc (y : Int)
  let br ← vget bratios (y : Int)
  let sel ← ensiSelect T A.toArma bp points pts s maxPoints (fun i => vget pobs (i : Int)) y
  if sel.length = 0 then ok row
  else do
    let rows ← mapM (utemRow pobs pratios gY) sel
    let t ← ensiTransform A members.length rows 1
    utemUpdate row rowc members rows br extrap t

/-- `gY` and the loop of `utem` over the output points, unless there is no valid member (oi_ensi_multi.cpp:952-1310). -/
def utemLoop [HasGeo K] [HasSqrt K] [HasExp K] (T : RTree K) (A : ArmaE K) (bp points : Points K) (pts : List (Point K)) (s : SF K)
    (maxPoints : Int) (extrap : Bool) (bratios : List (Fl K)) (background backgroundc : List (List (Fl K))) (pobs pratios : List (Fl K))
    (pbg pbgc : List (List (Fl K))) (members : List Nat) : Res (List (List (Fl K))) :=
  if members.length = 0 then ok background
  else do
    let gY ← mapM (utemPerturb background.length members pbg pbgc) (List.range points.size)
    mapM (utemCell T A bp points pts s maxPoints extrap bratios background backgroundc pobs pratios gY members)
      (List.range background.length)

/-- `optimal_interpolation_ensi_multi_utem` for points (oi_ensi_multi.cpp:862-1311). -/
def utemPoints [HasGeo K] [HasSqrt K] [HasExp K] (T : RTree K) (A : ArmaE K) (bp : Points K) (bratios : List (Fl K))
    (background backgroundc : List (List (Fl K))) (points : Points K) (pobs pratios : List (Fl K))
    (pbg pbgc : List (List (Fl K))) (s : SF K) (maxPoints : Int) (extrap : Bool) : Res (List (List (Fl K))) :=
  if maxPoints < 0 then throw .invalidArgument
  else if bp.type ≠ points.type then throw .invalidArgument
  else if background.length ≠ bp.size then throw .invalidArgument
  else if backgroundc.length ≠ bp.size then throw .invalidArgument
  else if bratios.length ≠ bp.size then throw .invalidArgument
  else if pobs.length ≠ points.size then throw .invalidArgument
  else if pratios.length ≠ points.size then throw .invalidArgument
  else if pbg.length ≠ points.size then throw .invalidArgument
  else if pbgc.length ≠ points.size then throw .invalidArgument
  else if points.size = 0 then ok background
  else do
    let r0 ← vget background 0
    let pts ← mapM (fun i : Nat => points.getPoint (i : Int)) (List.range points.size)
    let members ← validMembers r0.length (background ++ backgroundc ++ pbg ++ pbgc)
    utemLoop T A bp points pts s maxPoints extrap bratios background backgroundc pobs pratios pbg pbgc members

/-! ### The versions for grids -/

/-- The size checks of the three grid versions up to the background (oi_ensi_multi.cpp:51-75, 153-177, 243-267): grid size and number
of members. `background[0][0]` is read before any size is checked. -/
def multiGridSizes (g : Grid K) (points : Points K) (background : List (List (List (Fl K)))) : Res (Nat × Nat × Nat) := do
  let n ← g.size
  if n.1 = 0 ∨ n.2 = 0 then throw .invalidArgument
  else if g.type ≠ points.type then throw .invalidArgument
  else do
    let b0 ← vget background 0
    let b00 ← vget b0 0
    if background.length ≠ n.1 ∨ b0.length ≠ n.2 then throw .invalidArgument
    else ok (n.1, n.2, b00.length)

/-- `v.size() != nY || v[0].size() != nX || v[0][0].size() != nE` (oi_ensi_multi.cpp:76-80, 268-272). The message reads
`v[0][0]`. -/
def multiCheck3 (n : Nat × Nat × Nat) (v : List (List (List (Fl K)))) : Res Unit := do
  let v0 ← vget v 0
  let v00 ← vget v0 0
  if v.length ≠ n.1 ∨ v0.length ≠ n.2.1 ∨ v00.length ≠ n.2.2 then throw .invalidArgument else ok ()

/-- `v.size() != a || v[0].size() != b` (oi_ensi_multi.cpp:81-100, 178-192, 273-287). The message reads `v[0]`. -/
def multiCheck2 (a b : Nat) (v : List (List (Fl K))) : Res Unit := do
  let v0 ← vget v 0
  if v.length ≠ a ∨ v0.length ≠ b then throw .invalidArgument else ok ()

/-- `optimal_interpolation_ensi_multi_ebesc` for grids (oi_ensi_multi.cpp:137-223). -/
def ebescGrid [HasGeo K] [HasSqrt K] [HasExp K] (T : RTree K) (A : Arma K) (g : Grid K) (bratios : List (List (Fl K)))
    (background : List (List (List (Fl K)))) (points : Points K) (pobs : List (List (Fl K))) (pratios : List (Fl K))
    (pbg : List (List (Fl K))) (s : SF K) (maxPoints : Int) (extrap : Bool) : Res (List (List (List (Fl K)))) :=
  if maxPoints < 0 then throw .invalidArgument
  else if points.size = 0 then ok background
  else do
    let n ← multiGridSizes g points background
    let _ ← multiCheck2 n.1 n.2.1 bratios
    let _ ← multiCheck2 points.size n.2.2 pbg
    let _ ← multiCheck2 points.size n.2.2 pobs
    if pratios.length ≠ points.size then throw .invalidArgument
    else do
      let bp ← g.toPoints
      let b1 ← flatten3 n.1 n.2.1 n.2.2 background
      let r1 ← grid2 n.1 n.2.1 (fun y x => vget2 bratios y x)
      let o1 ← ebescPoints T A bp r1.flatten b1 points pobs pratios pbg s maxPoints extrap
      unflatten3 n.1 n.2.1 n.2.2 o1

/-- `optimal_interpolation_ensi_multi_ebe` for grids (oi_ensi_multi.cpp:34-134). -/
def ebeGrid [HasGeo K] [HasSqrt K] [HasExp K] (T : RTree K) (A : Arma K) (g : Grid K) (bratios : List (List (Fl K)))
    (background backgroundc : List (List (List (Fl K)))) (points : Points K) (pobs : List (List (Fl K))) (pratios : List (Fl K))
    (pbg pbgc : List (List (Fl K))) (s : SF K) (maxPoints : Int) (extrap : Bool) : Res (List (List (List (Fl K)))) :=
  if maxPoints < 0 then throw .invalidArgument
  else if points.size = 0 then ok background
  else do
    let n ← multiGridSizes g points background
    let _ ← multiCheck3 n backgroundc
    let _ ← multiCheck2 n.1 n.2.1 bratios
    let _ ← multiCheck2 points.size n.2.2 pbg
    let _ ← multiCheck2 points.size n.2.2 pbgc
    let _ ← multiCheck2 points.size n.2.2 pobs
    if pratios.length ≠ points.size then throw .invalidArgument
    else do
      let bp ← g.toPoints
      let b1 ← flatten3 n.1 n.2.1 n.2.2 background
      let c1 ← flatten3 n.1 n.2.1 n.2.2 backgroundc
      let r1 ← grid2 n.1 n.2.1 (fun y x => vget2 bratios y x)
      let o1 ← ebePoints T A bp r1.flatten b1 c1 points pobs pratios pbg pbgc s maxPoints extrap
      unflatten3 n.1 n.2.1 n.2.2 o1

/-- `optimal_interpolation_ensi_multi_utem` for grids (oi_ensi_multi.cpp:226-326). -/
def utemGrid [HasGeo K] [HasSqrt K] [HasExp K] (T : RTree K) (A : ArmaE K) (g : Grid K) (bratios : List (List (Fl K)))
    (background backgroundc : List (List (List (Fl K)))) (points : Points K) (pobs pratios : List (Fl K))
    (pbg pbgc : List (List (Fl K))) (s : SF K) (maxPoints : Int) (extrap : Bool) : Res (List (List (List (Fl K)))) :=
  if maxPoints < 0 then throw .invalidArgument
  else if points.size = 0 then ok background
  else do
    let n ← multiGridSizes g points background
    let _ ← multiCheck3 n backgroundc
    let _ ← multiCheck2 n.1 n.2.1 bratios
    let _ ← multiCheck2 points.size n.2.2 pbg
    let _ ← multiCheck2 points.size n.2.2 pbgc
    if pobs.length ≠ points.size then throw .invalidArgument
    else if pratios.length ≠ points.size then throw .invalidArgument
    else do
      let bp ← g.toPoints
      let b1 ← flatten3 n.1 n.2.1 n.2.2 background
      let c1 ← flatten3 n.1 n.2.1 n.2.2 backgroundc
      let r1 ← grid2 n.1 n.2.1 (fun y x => vget2 bratios y x)
      let o1 ← utemPoints T A bp r1.flatten b1 c1 points pobs pratios pbg pbgc s maxPoints extrap
      unflatten3 n.1 n.2.1 n.2.2 o1

end
end Gridpp
