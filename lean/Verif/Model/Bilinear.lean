import Verif.Model.Nearest

/-! Model of bilinear.cpp. Intermediate `float` and `double` values are exact (see DESIGN.md); decimal constants are the
rational numbers they are written as. -/

set_option linter.unusedSectionVars false

namespace Gridpp
open Fl Res

section
variable {K : Type} [Field K] [LinearOrder K] [IsStrictOrderedRing K]

/-- Corner coordinates of a cell as passed to `::bilinear` (bilinear.cpp:270): `0` is (I1, J1), `1` is (I2, J1), `2` is
(I1, J2), `3` is (I2, J2); `x` is longitude and `y` latitude. -/
structure Quad (K : Type) where
  x0 : Fl K
  x1 : Fl K
  x2 : Fl K
  x3 : Fl K
  y0 : Fl K
  y1 : Fl K
  y2 : Fl K
  y3 : Fl K

/-- `is_within_range` (bilinear.cpp:155-158). -/
def isWithinRange (value : Fl K) : Bool := value.ge (fin (-(1 / 100))) && value.lt (fin (1 + 1 / 100))

/-- `calcParallelogram` (bilinear.cpp:138-154); the result is `(s, t)`. -/
def calcParallelogram (x y X1 X2 X3 Y1 Y2 Y3 : Fl K) : Res (Fl K × Fl K) := do
  let A := X2 - X1
  let B := X3 - X1
  let C := Y2 - Y1
  let D := Y3 - Y1
  assert ((A * D).fne (B * C))
  let det := 1 / (A * D - B * C)
  ok (det * ((x - X1) * D + (y - Y1) * (-B)), det * ((x - X1) * (-C) + (y - Y1) * A))

/-- The coefficients `a` to `h` of `calcGeneral` (bilinear.cpp:162-169). -/
structure Coefs (K : Type) where
  a : Fl K
  b : Fl K
  c : Fl K
  d : Fl K
  e : Fl K
  f : Fl K
  g : Fl K
  h : Fl K

/-- bilinear.cpp:162-169. -/
def coefs (x y : Fl K) (q : Quad K) : Coefs K where
  a := -q.x0 + q.x2
  b := -q.x0 + q.x1
  c := q.x0 - q.x1 - q.x2 + q.x3
  d := x - q.x0
  e := -q.y0 + q.y2
  f := -q.y0 + q.y1
  g := q.y0 - q.y1 - q.y2 + q.y3
  h := y - q.y0

/-- `2 * c * e - 2 * a * g` (bilinear.cpp:198). -/
def Coefs.alphaDiv (k : Coefs K) : Fl K := fin 2 * k.c * k.e - fin 2 * k.a * k.g

/-- `2 * c * f - 2 * b * g` (bilinear.cpp:198). -/
def Coefs.betaDiv (k : Coefs K) : Fl K := fin 2 * k.c * k.f - fin 2 * k.b * k.g

/-- `b * e - a * f + d * g - c * h` (bilinear.cpp:200). -/
def Coefs.alphaLin (k : Coefs K) : Fl K := k.b * k.e - k.a * k.f + k.d * k.g - k.c * k.h

/-- `b * e - a * f - d * g + c * h` (bilinear.cpp:201). -/
def Coefs.betaLin (k : Coefs K) : Fl K := k.b * k.e - k.a * k.f - k.d * k.g + k.c * k.h

/-- The square root of bilinear.cpp:200; `pow(z, 2)` is `z * z`. -/
def Coefs.root [HasSqrt K] (k : Coefs K) : Fl K :=
  Fl.sqrt (fin (-4) * (k.c * k.e - k.a * k.g) * (k.d * k.f - k.b * k.h) + k.alphaLin * k.alphaLin)

/-- The two solutions for `alpha`, first choice first (bilinear.cpp:200, 208-209 and 232-234). -/
def Coefs.alpha [HasSqrt K] (k : Coefs K) : Fl K :=
  let alpha := -(k.alphaLin + k.root) / k.alphaDiv
  if isWithinRange alpha then alpha else -(k.alphaLin - k.root) / k.alphaDiv

/-- The two solutions for `beta`, first choice first (bilinear.cpp:201, 210-211). -/
def Coefs.beta [HasSqrt K] (k : Coefs K) : Fl K :=
  let beta := (k.betaLin + k.root) / k.betaDiv
  if isWithinRange beta then beta else (k.betaLin - k.root) / k.betaDiv

/-- `beta` in the third branch: both attempts use the same formula (bilinear.cpp:250-252). -/
def Coefs.betaOnly [HasSqrt K] (k : Coefs K) : Fl K :=
  let beta := (k.betaLin + k.root) / k.betaDiv
  if isWithinRange beta then beta else (k.betaLin + k.root) / k.betaDiv

/-- `t` from `s` (bilinear.cpp:237-243), with `Y1 = y1`, `Y2 = y3`, `Y3 = y0`, `Y4 = y2` and likewise for `X`. -/
def diagnoseT (x y : Fl K) (q : Quad K) (s : Fl K) : Res (Fl K) :=
  let Y43 := q.y2 - q.y0
  let Y21 := q.y3 - q.y1
  let X43 := q.x2 - q.x0
  let X21 := q.x3 - q.x1
  if (q.y0 + Y43 * s - q.y1 - Y21 * s).feq 0 then do
    assert ((q.x0 + X43 * s - q.x1 - X21 * s).fne 0)
    ok ((x - q.x1 - X21 * s) / (q.x0 + X43 * s - q.x1 - X21 * s))
  else ok ((y - q.y1 - Y21 * s) / (q.y0 + Y43 * s - q.y1 - Y21 * s))

/-- `s` from `t` (bilinear.cpp:255-261). -/
def diagnoseS (x y : Fl K) (q : Quad K) (t : Fl K) : Res (Fl K) :=
  let Y42 := q.y2 - q.y3
  let Y31 := q.y0 - q.y1
  let X42 := q.x2 - q.x3
  let X31 := q.x0 - q.x1
  if (q.y3 + Y42 * t - q.y1 - Y31 * t).feq 0 then do
    assert ((q.x3 + X42 * t - q.x1 - X31 * t).fne 0)
    ok ((x - q.x1 - X31 * t) / (q.x3 + X42 * t - q.x1 - X31 * t))
  else ok ((y - q.y1 - Y31 * t) / (q.y3 + Y42 * t - q.y1 - Y31 * t))

/-- The assertions and the result of all three branches (bilinear.cpp:227-228, 245-246, 263-267). -/
def generalResult (alpha beta : Fl K) : Res (Fl K × Fl K) := do
  assert (isWithinRange alpha)
  assert (isWithinRange beta)
  ok (alpha, 1 - beta)

/-- `calcGeneral` (bilinear.cpp:160-269); the result is `(s, t)`. The last branch (`alpha`, `beta` still missing) cannot be
reached. -/
def calcGeneral [HasSqrt K] (x y : Fl K) (q : Quad K) : Res (Fl K × Fl K) :=
  let k := coefs x y q
  if k.alphaDiv.fne 0 && k.betaDiv.fne 0 then generalResult k.alpha k.beta
  else if k.betaDiv.feq 0 then do
    let t ← diagnoseT x y q k.alpha
    generalResult k.alpha (1 - t)
  else if k.alphaDiv.feq 0 then do
    let s ← diagnoseS x y q (1 - k.betaOnly)
    generalResult s k.betaOnly
  else ok (MV, 1 - MV)

/-- `verticalParallel && horizontalParallel` (bilinear.cpp:290-291, 296). -/
def nearParallelogram (q : Quad K) : Bool :=
  ((q.x0 - q.x1) * (q.y2 - q.y3) - (q.x2 - q.x3) * (q.y0 - q.y1)).abs.le (fin (1 / 10000)) &&
  ((q.x3 - q.x1) * (q.y2 - q.y0) - (q.x2 - q.x0) * (q.y3 - q.y1)).abs.le (fin (1 / 10000))

/-- `s` and `t` of `::bilinear` before the adjustment (bilinear.cpp:287-299). -/
def bilinearST [HasSqrt K] (x y : Fl K) (q : Quad K) : Res (Fl K × Fl K) :=
  if nearParallelogram q then calcParallelogram x y q.x1 q.x3 q.x0 q.y1 q.y3 q.y0
  else calcGeneral x y q

/-- The adjustment of `t` and `s` (bilinear.cpp:301-308). -/
def snap (t : Fl K) : Fl K :=
  let t := if t.ge 1 && t.le (fin (115 / 100)) then 1 else t
  if t.le 0 && t.ge (fin (-(15 / 100))) then 0 else t

/-- `s >= 0 && s <= 1 && t >= 0 && t <= 1` (bilinear.cpp:309). -/
def unitRange (s t : Fl K) : Bool := s.ge 0 && s.le 1 && t.ge 0 && t.le 1

/-- The weighted sum (bilinear.cpp:279-282, 315). -/
def bilinearSum (s t v0 v1 v2 v3 : Fl K) : Fl K :=
  v1 * (1 - s) * (1 - t) + v3 * s * (1 - t) + v0 * (1 - s) * t + v2 * s * t

/-- `::bilinear` (bilinear.cpp:270-318). The assertion on line 314 repeats the condition of line 309. -/
def bilinear4 [HasSqrt K] (x y : Fl K) (q : Quad K) (v0 v1 v2 v3 : Fl K) : Res (Fl K) := do
  let st ← bilinearST x y q
  let t := snap st.2
  let s := snap st.1
  if unitRange s t then ok (bilinearSum s t v0 v1 v2 v3) else throw .runtimeError

variable [HasGeo K]

/-- The corner coordinates of a box (bilinear.cpp:330-337 and 370-377). -/
def boxQuad (lats lons : List (List (Fl K))) (b : Box) : Res (Quad K) := do
  let x0 ← vget2 lons b.y1 b.x1
  let x1 ← vget2 lons b.y2 b.x1
  let x2 ← vget2 lons b.y1 b.x2
  let x3 ← vget2 lons b.y2 b.x2
  let y0 ← vget2 lats b.y1 b.x1
  let y1 ← vget2 lats b.y2 b.x1
  let y2 ← vget2 lats b.y1 b.x2
  let y3 ← vget2 lats b.y2 b.x2
  ok ⟨x0, x1, x2, x3, y0, y1, y2, y3⟩

/-- The value of `ivalues` at the nearest cell (bilinear.cpp:348-349, 355-356). -/
def nearestValue (T : RTree K) (g : Grid K) (ivalues : List (List (Fl K))) (lat lon : Fl K) : Res (Fl K) := do
  let c ← nearestCell T g lat lon
  vget2 ivalues c.1 c.2

/-- The value from the corners of a box (bilinear.cpp:339-350, 380-391). -/
def boxValue [HasSqrt K] (T : RTree K) (g : Grid K) (ivalues : List (List (Fl K))) (lat lon : Fl K) (b : Box) (q : Quad K) : Res (Fl K) := do
  let v0 ← vget2 ivalues b.y1 b.x1
  let v1 ← vget2 ivalues b.y2 b.x1
  let v2 ← vget2 ivalues b.y1 b.x2
  let v3 ← vget2 ivalues b.y2 b.x2
  if v0.isValid && v1.isValid && v2.isValid && v3.isValid then bilinear4 lon lat q v0 v1 v2 v3
  else nearestValue T g ivalues lat lon

/-- `::calc(..., const vec2&, ...)` (bilinear.cpp:321-359). -/
def bilinearAt [HasSqrt K] (T : RTree K) (g : Grid K) (ivalues : List (List (Fl K))) (lat lon : Fl K) : Res (Fl K) := do
  let box ← g.getBox T lat lon
  match box with
  | some b => do
    let q ← boxQuad g.lats g.lons b
    boxValue T g ivalues lat lon b q
  | none => nearestValue T g ivalues lat lon

/-- `::calc(..., const vec3&, ...)` (bilinear.cpp:360-403). -/
def bilinearAt3 [HasSqrt K] (T : RTree K) (g : Grid K) (ivalues : List (List (List (Fl K)))) (lat lon : Fl K) : Res (List (Fl K)) := do
  let box ← g.getBox T lat lon
  match box with
  | some b => do
    let q ← boxQuad g.lats g.lons b
    mapM (fun f => boxValue T g f lat lon b q) ivalues
  | none => do
    let c ← nearestCell T g lat lon
    mapM (fun f => vget2 f c.1 c.2) ivalues

/-- `gridpp::bilinear(const Grid&, const Grid&, const vec2&)` (bilinear.cpp:27-54). -/
def bilinearGG2 [HasSqrt K] (T : RTree K) (igrid ogrid : Grid K) (iv : List (List (Fl K))) : Res (List (List (Fl K))) := do
  let c ← compatibleSizeG2 igrid iv
  if c = false then throw .invalidArgument
  else do
    let row0 ← vget ogrid.lats 0
    let s ← igrid.size
    if s.1 = 0 ∨ s.2 = 0 then ok (initVec2 ogrid.lats.length row0.length MV)
    else omp (grid2 ogrid.lats.length row0.length fun i j => do
      let la ← vget2 ogrid.lats i j
      let lo ← vget2 ogrid.lons i j
      bilinearAt T igrid iv la lo)

/-- `gridpp::bilinear(const Grid&, const Grid&, const vec3&)` (bilinear.cpp:55-83). The values of all times are computed
for every cell before they are written to the output. -/
def bilinearGG3 [HasSqrt K] (T : RTree K) (igrid ogrid : Grid K) (iv : List (List (List (Fl K)))) : Res (List (List (List (Fl K)))) := do
  let c ← compatibleSizeG3 igrid iv
  if c = false then throw .invalidArgument
  else do
    let row0 ← vget ogrid.lats 0
    let nLat := ogrid.lats.length
    let nLon := row0.length
    let s ← igrid.size
    if s.1 = 0 ∨ s.2 = 0 then ok (initVec3 iv.length nLat nLon MV)
    else do
      let temp ← omp (grid2 nLat nLon fun i j => do
        let la ← vget2 ogrid.lats i j
        let lo ← vget2 ogrid.lons i j
        bilinearAt3 T igrid iv la lo)
      mapM (fun t : Int => grid2 nLat nLon fun i j => do
        let c ← vget2 temp i j
        vget c t) (upto iv.length)

/-- `gridpp::bilinear(const Grid&, const Points&, const vec2&)` (bilinear.cpp:85-109). -/
def bilinearGP2 [HasSqrt K] (T : RTree K) (igrid : Grid K) (op : Points K) (iv : List (List (Fl K))) : Res (List (Fl K)) := do
  let c ← compatibleSizeG2 igrid iv
  if c = false then throw .invalidArgument
  else do
    let s ← igrid.size
    if s.1 = 0 ∨ s.2 = 0 then ok (List.replicate op.lats.length MV)
    else omp (mapM (fun i : Int => do
      let la ← vget op.lats i
      let lo ← vget op.lons i
      bilinearAt T igrid iv la lo) (upto op.lats.length))

/-- `gridpp::bilinear(const Grid&, const Points&, const vec3&)` (bilinear.cpp:110-135). -/
def bilinearGP3 [HasSqrt K] (T : RTree K) (igrid : Grid K) (op : Points K) (iv : List (List (List (Fl K)))) : Res (List (List (Fl K))) := do
  let c ← compatibleSizeG3 igrid iv
  if c = false then throw .invalidArgument
  else do
    let s ← igrid.size
    if s.1 = 0 ∨ s.2 = 0 then ok (initVec2 iv.length op.lats.length MV)
    else do
      let temp ← omp (mapM (fun i : Int => do
        let la ← vget op.lats i
        let lo ← vget op.lons i
        bilinearAt3 T igrid iv la lo) (upto op.lats.length))
      grid2 iv.length op.lats.length fun t i => do
        let c ← vget temp i
        vget c t

end
end Gridpp
