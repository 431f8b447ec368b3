import Verif.Model.Bilinear
import Verif.Model.Client.Downscaler

/-!
# src/client/Downscaler/Bilinear.cpp

Corners are numbered as in the library: `0` is (I1, J1), `1` is (I2, J1), `2` is (I1, J2), `3` is (I2, J2). Where the formulas are those of
the library (src/api/bilinear.cpp), its model is used.

`getI` and `getJ` are declared `bool` but return nothing (src/client/Downscaler/Bilinear.cpp:455-501), which is undefined behaviour in C++.
The functions below take an argument `fall`, which is what happens at the end of such a function: `.ub` by the standard, `ok ()` if
the caller continues, as it does if the compiler inserts a return.
-/

set_option linter.unusedSectionVars false

namespace Gridpp.Client
open Fl Res

variable {K : Type} [Field K] [LinearOrder K] [IsStrictOrderedRing K]

/-- `alpha` (src/client/Downscaler/Bilinear.cpp:419 and 424): the first solution only. -/
def alphaC [HasSqrt K] (k : Coefs K) : Fl K := -(k.alphaLin + k.root) / k.alphaDiv

/-- `beta` (src/client/Downscaler/Bilinear.cpp:420 and 438): the first solution only. -/
def betaC [HasSqrt K] (k : Coefs K) : Fl K := (k.betaLin + k.root) / k.betaDiv

/-- `calcGeneral` (src/client/Downscaler/Bilinear.cpp:391-453); the result is `(s, t)`. `diagnoseT` is lines 425-433, `diagnoseS` lines
439-447. -/
def calcGeneralC [HasSqrt K] (x y : Fl K) (q : Quad K) : Res (Fl K × Fl K) :=
  let k := coefs x y q
  if k.alphaDiv.fne 0 && k.betaDiv.fne 0 then ok (alphaC k, 1 - betaC k)
  else if k.betaDiv.feq 0 then do
    let t ← diagnoseT x y q (alphaC k)
    ok (alphaC k, 1 - (1 - t))
  else if k.alphaDiv.feq 0 then do
    let s ← diagnoseS x y q (1 - betaC k)
    ok (s, 1 - betaC k)
  else ok (MV, 1 - MV)

/-- `verticalParallel && horizontalParallel` (src/client/Downscaler/Bilinear.cpp:359-360). -/
def parallelC (q : Quad K) : Bool :=
  ((q.x0 - q.x1) * (q.y2 - q.y3) - (q.x2 - q.x3) * (q.y0 - q.y1)).abs.le (fin (1 / 1000000)) &&
  ((q.x3 - q.x1) * (q.y2 - q.y0) - (q.x2 - q.x0) * (q.y3 - q.y1)).abs.le (fin (1 / 1000000))

/-- `calcST` (src/client/Downscaler/Bilinear.cpp:348-368); the result is `(s, t)`. `calcParallelogram` (lines 369-389) is that of the
library. -/
def calcST [HasSqrt K] (x y : Fl K) (q : Quad K) : Res (Fl K × Fl K) :=
  if parallelC q then calcParallelogram x y q.x1 q.x3 q.x0 q.y1 q.y3 q.y0 else calcGeneralC x y q

/-- The adjustment of `t` and `s` (src/client/Downscaler/Bilinear.cpp:51-60). -/
def snapC (t : Fl K) : Fl K :=
  let t := if t.ge 1 && t.le (fin (117 / 100)) then 1 else t
  if t.le 0 && t.ge (fin (-(20 / 100))) then 0 else t

/-- `DownscalerBilinear::bilinear` (src/client/Downscaler/Bilinear.cpp:31-74). The assertion on line 70 repeats the condition of line
61. -/
def bilinearC [HasSqrt K] (x y : Fl K) (q : Quad K) (v0 v1 v2 v3 : Fl K) : Res (Fl K) := do
  let st ← calcST x y q
  let t := snapC st.2
  let s := snapC st.1
  if unitRange s t then ok (bilinearSum s t v0 v1 v2 v3) else error

/-- `getI` and `getJ` (src/client/Downscaler/Bilinear.cpp:455-501). -/
def getPair (fall : Res Unit) (I : Int) (up inc : Bool) : Res (Int × Int) := do
  fall
  ok (if up then (if inc then (I, I + 1) else (I - 1, I)) else (if inc then (I - 1, I) else (I, I + 1)))

/-- A sequence of `if(…) return false;`: true if one of the conditions holds. -/
def anyTrue : List (Res Bool) → Res Bool
  | [] => ok false
  | r :: rs => do
    let b ← r
    if b then ok true else anyTrue rs

/-- `cond && a < b`, where `a` and `b` are elements of vectors. -/
def andLess (cond : Bool) (a b : Res (Fl K)) : Res Bool :=
  if cond then do
    let u ← a
    let v ← b
    ok (u.lt v)
  else ok false

/-- The tests whether the place is outside the grid (src/client/Downscaler/Bilinear.cpp:207-229, again on lines 294-316). The last one
has `I == nJ-1` where `J == nJ-1` is meant. -/
def outsideC (lats lons : List (List (Fl K))) (nI nJ I J : Int) (above right : Bool) : Res Bool :=
  anyTrue
    [andLess (above && decide (I = nI - 1)) (vget2 lats (I - 1) J) (vget2 lats I J),
     andLess (!above && decide (I = 0)) (vget2 lats 0 J) (vget2 lats 1 J),
     andLess (above && decide (I = 0)) (vget2 lats 1 J) (vget2 lats 0 J),
     andLess (!above && decide (I = nI - 1)) (vget2 lats I J) (vget2 lats (I - 1) J),
     andLess (right && decide (J = nJ - 1)) (vget2 lons I (J - 1)) (vget2 lons I J),
     andLess (!right && decide (J = 0)) (vget2 lons I 0) (vget2 lons I 1),
     andLess (right && decide (J = 0)) (vget2 lons I 1) (vget2 lons I 0),
     andLess (!right && decide (I = nJ - 1)) (vget2 lons I J) (vget2 lons I (J - 1))]

/-- The coordinates of the corners (src/client/Downscaler/Bilinear.cpp:105-112, 158-165, 258-265, 317-324). -/
def cornersC (lats lons : List (List (Fl K))) (b : Box) : Res (Quad K) := do
  let x0 ← vget2 lons b.y1 b.x1
  let x1 ← vget2 lons b.y2 b.x1
  let x2 ← vget2 lons b.y1 b.x2
  let x3 ← vget2 lons b.y2 b.x2
  let y0 ← vget2 lats b.y1 b.x1
  let y1 ← vget2 lats b.y2 b.x1
  let y2 ← vget2 lats b.y1 b.x2
  let y3 ← vget2 lats b.y2 b.x2
  ok ⟨x0, x1, x2, x3, y0, y1, y2, y3⟩

/-- `s < -bilinearLimit || s > 1 + bilinearLimit` (src/client/Downscaler/Bilinear.cpp:6, 283 and 289). -/
def beyond (s : Fl K) : Bool := s.gt (fin (1 + 1 / 20)) || s.lt (fin (-(1 / 20)))

/-- `iLats[I][J] > iLats[I-1][J]` unless `I == 0` (src/client/Downscaler/Bilinear.cpp:232-233). -/
def increasing (first : Bool) (a b : Res (Fl K)) : Res Bool :=
  if first then ok true else do
    let u ← a
    let v ← b
    ok (v.lt u)

/-- The end of `findCoords` (src/client/Downscaler/Bilinear.cpp:328-346). -/
def acceptC (b : Box) (st : Fl K × Fl K) : Res (Option Box) :=
  if beyond st.1 || beyond st.2 then error
  else do
    assert (st.1.le (fin (1 + 1 / 20)))
    assert (st.1.ge (fin (-(1 / 20))))
    assert (st.2.le (fin (1 + 1 / 20)))
    assert (st.2.ge (fin (-(1 / 20))))
    ok (some b)

/-- The pair of rows or columns in the second attempt (src/client/Downscaler/Bilinear.cpp:283-293). -/
def repick (fall : Res Unit) (flip : Bool) (I : Int) (up inc : Bool) (old : Int × Int) : Res (Int × Int) :=
  if flip then getPair fall I up inc else ok old

/-- The second attempt (src/client/Downscaler/Bilinear.cpp:283-325). The new corners are not checked against the size of the grid. -/
def retryC [HasSqrt K] (fall : Res Unit) (lat lon : Fl K) (lats lons : List (List (Fl K))) (nI nJ I J : Int) (above right iInc jInc : Bool)
    (b : Box) (st : Fl K × Fl K) : Res (Option Box) := do
  let above' := if beyond st.2 then !above else above
  let right' := if beyond st.1 then !right else right
  let i ← repick fall (beyond st.2) I above' iInc (b.y1, b.y2)
  let j ← repick fall (beyond st.1) J right' jInc (b.x1, b.x2)
  let out ← outsideC lats lons nI nJ I J above' right'
  if out then ok none
  else do
    let q ← cornersC lats lons ⟨i.1, j.1, i.2, j.2⟩
    let st' ← calcST lon lat q
    acceptC ⟨i.1, j.1, i.2, j.2⟩ st'

/-- `findCoords` after the first tests (src/client/Downscaler/Bilinear.cpp:231-346). The warning on lines 267-281 is left out. -/
def findCell [HasSqrt K] (fall : Res Unit) (lat lon : Fl K) (lats lons : List (List (Fl K))) (nI nJ I J : Int) (above right : Bool) :
    Res (Option Box) := do
  let iInc ← increasing (decide (I = 0)) (vget2 lats I J) (vget2 lats (I - 1) J)
  let jInc ← increasing (decide (J = 0)) (vget2 lons I J) (vget2 lons I (J - 1))
  let i ← getPair fall I above iInc
  let j ← getPair fall J right jInc
  if (decide (i.1 < 0) || decide (nI ≤ i.1)) || (decide (i.2 < 0) || decide (nI ≤ i.2)) ||
      (decide (j.1 < 0) || decide (nJ ≤ j.1)) || (decide (j.2 < 0) || decide (nJ ≤ j.2)) then ok none
  else do
    let q ← cornersC lats lons ⟨i.1, j.1, i.2, j.2⟩
    let st ← calcST lon lat q
    if beyond st.1 || beyond st.2 then retryC fall lat lon lats lons nI nJ I J above right iInc jInc ⟨i.1, j.1, i.2, j.2⟩ st
    else acceptC ⟨i.1, j.1, i.2, j.2⟩ st

/-- `DownscalerBilinear::findCoords` (src/client/Downscaler/Bilinear.cpp:191-347): `none` is the return value false. The coordinates of
the nearest neighbour are read before the asserts on its indices. -/
def findCoords [HasSqrt K] (fall : Res Unit) (lat lon : Fl K) (lats lons : List (List (Fl K))) (I J : Int) : Res (Option Box) := do
  let lon0 ← vget2 lons I J
  let lat0 ← vget2 lats I J
  let nJ ← numX lats
  assert (decide (I < lats.length) && decide (0 ≤ I))
  assert (decide (J < nJ) && decide (0 ≤ J))
  let out ← outsideC lats lons lats.length nJ I J (lat.gt lat0) (lon.gt lon0)
  if out then ok none else findCell fall lat lon lats lons lats.length nJ I J (lat.gt lat0) (lon.gt lon0)

/-- The value of one member (src/client/Downscaler/Bilinear.cpp:167-178 and 183-185). `cell` is the result of `findCoords` with the
coordinates of the corners. -/
def bilinearMember [HasSqrt K] (ifield : FieldC K) (I J : Int) (lat lon : Fl K) (cell : Option (Box × Quad K)) (e : Nat) : Res (Fl K) :=
  match cell with
  | none => ifield.getInt I J e
  | some (b, q) => do
    let v0 ← ifield.getInt b.y1 b.x1 e
    let v1 ← ifield.getInt b.y2 b.x1 e
    let v2 ← ifield.getInt b.y1 b.x2 e
    let v3 ← ifield.getInt b.y2 b.x2 e
    if isValid v0 && isValid v1 && isValid v2 && isValid v3 then bilinearC lon lat q v0 v1 v2 v3 else ok MV

/-- `findCoords` and, if it returns true, the coordinates of the corners (src/client/Downscaler/Bilinear.cpp:156-165). -/
def findQuad [HasSqrt K] (fall : Res Unit) (lat lon : Fl K) (lats lons : List (List (Fl K))) (I J : Int) :
    Res (Option (Box × Quad K)) := do
  let cell ← findCoords fall lat lon lats lons I J
  match cell with
  | none => ok none
  | some b => do
    let q ← cornersC lats lons b
    ok (some (b, q))

/-- `DownscalerBilinear::downscaleField` (src/client/Downscaler/Bilinear.cpp:135-189). -/
def bilinearField [HasSqrt K] (fall : Res Unit) (ilats ilons olats olons : List (List (Fl K))) (near : List (List (Int × Int)))
    (ifield ofield : FieldC K) : Res (FieldC K) :=
  FieldC.forCells ofield.nY ofield.nX (fun f i j => do
    let c ← vget2 near i j
    let lat ← vget2 olats i j
    let lon ← vget2 olons i j
    let cell ← findQuad fall lat lon ilats ilons c.1 c.2
    foldM (fun f e => do
      let v ← bilinearMember ifield c.1 c.2 lat lon cell e
      f.set i j e v) f (List.range ofield.nE)) ofield

/-- `DownscalerBilinear::downscaleCore` (src/client/Downscaler/Bilinear.cpp:13-29). -/
def bilinearCore [HasSqrt K] [HasArcC K] (fall : Res Unit) (sort : Bool → List (Site K) → List (Site K))
    (ilats ilons olats olons : List (List (Fl K))) (ifields ofields : List (FieldC K)) : Res (List (FieldC K)) := do
  let near ← treeGrid sort ilats ilons olats olons
  eachStep (bilinearField fall ilats ilons olats olons near) ifields ofields

/-- The value of one place in `downscaleVec` (src/client/Downscaler/Bilinear.cpp:103-129). Unlike for a field, a missing corner gives the
value of the nearest neighbour. -/
def bilinearPlace [HasSqrt K] (input : List (List (Fl K))) (I J : Int) (lat lon : Fl K) (cell : Option (Box × Quad K)) : Res (Fl K) :=
  match cell with
  | none => vget2 input I J
  | some (b, q) => do
    let v0 ← vget2 input b.y1 b.x1
    let v1 ← vget2 input b.y2 b.x1
    let v2 ← vget2 input b.y1 b.x2
    let v3 ← vget2 input b.y2 b.x2
    if isValid v0 && isValid v1 && isValid v2 && isValid v3 then bilinearC lon lat q v0 v1 v2 v3 else vget2 input I J

/-- `DownscalerBilinear::downscaleVec` (src/client/Downscaler/Bilinear.cpp:76-133). -/
def bilinearVec [HasSqrt K] (fall : Res Unit) (input ilats ilons olats olons : List (List (Fl K))) (near : List (List (Int × Int))) :
    Res (List (List (Fl K))) := do
  let nLon ← numX olats
  grid2 olats.length nLon fun i j => do
    let c ← vget2 near i j
    let lat ← vget2 olats i j
    let lon ← vget2 olons i j
    let cell ← findQuad fall lat lon ilats ilons c.1 c.2
    bilinearPlace input c.1 c.2 lat lon cell

end Gridpp.Client
