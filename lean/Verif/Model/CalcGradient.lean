import Verif.Model.Neighbourhood

/-! Model of calc_gradient.cpp. -/

set_option linter.unusedSectionVars false

namespace Gridpp
open Fl Res

/-- `gridpp::GradientType` (include/gridpp.h:126-129); `other` stands for any value outside the enumeration. -/
inductive GradientType where
  | minMax | linearRegression | other
  deriving DecidableEq, Repr

section
variable {K : Type} [Field K] [LinearOrder K] [IsStrictOrderedRing K] [FloorRing K] [HasSqrt K]

/-- `gridpp::compatible_size(const vec2&, const vec2&)` (util.cpp:439-447): equal sizes of all rows. -/
def compatibleSize22 {α β : Type} (a : List (List α)) (b : List (List β)) : Bool := decide (a.map List.length = b.map List.length)

/-- `current_max`, `current_min`, the positions where they were found, and `count` (calc_gradient.cpp:29-35). -/
structure MinMaxState (K : Type) where
  cmax : Fl K
  cmin : Fl K
  imax : Int × Int
  imin : Int × Int
  count : Nat

/-- One iteration of the loops over the window (calc_gradient.cpp:38-55). -/
def minMaxStep (base values : List (List (Fl K))) (s : MinMaxState K) (yy xx : Int) : Res (MinMaxState K) := do
  let b ← vget2 base yy xx
  if !b.isValid then ok s
  else do
    let v ← vget2 values yy xx
    if !v.isValid then ok s
    else
      let up := !s.cmax.isValid || b.gt s.cmax
      let down := !s.cmin.isValid || b.lt s.cmin
      ok { cmax := if up then b else s.cmax
           imax := if up then (yy, xx) else s.imax
           cmin := if down then b else s.cmin
           imin := if down then (yy, xx) else s.imin
           count := s.count + 1 }

/-- One cell for `MinMax` (calc_gradient.cpp:29-72). The unqualified `abs` is taken to be the one for floating point numbers. -/
def minMaxCell (base values : List (List (Fl K))) (nY nX : Nat) (halfwidth numMin : Int) (minRange default : Fl K) (y x : Int) : Res (Fl K) := do
  let s ← foldM (fun s yy => foldM (fun s xx => minMaxStep base values s yy xx) s
      (irange (max 0 (x - halfwidth)) (min ((nX : Int) - 1) (x + halfwidth))))
    { cmax := MV, cmin := MV, imax := (0, 0), imin := (0, 0), count := 0 }
    (irange (max 0 (y - halfwidth)) (min ((nY : Int) - 1) (y + halfwidth)))
  if (s.count : Int) < numMin then ok default
  else if !s.cmax.isValid || !s.cmin.isValid then ok default
  else if (Fl.abs (s.cmax - s.cmin)).le minRange then ok default
  else do
    let v1 ← vget2 values s.imax.1 s.imax.2
    let v0 ← vget2 values s.imin.1 s.imin.2
    ok ((v1 - v0) / (s.cmax - s.cmin))

/-- One row for `MinMax` (calc_gradient.cpp:27-74): the loop runs over the cells of `base[y]`, the output row has the size of
`base[0]`. -/
def minMaxRow (base values : List (List (Fl K))) (nY nX : Nat) (halfwidth numMin : Int) (minRange default : Fl K) (y : Int) : Res (List (Fl K)) := do
  let row ← vget base y
  let cells ← mapM (minMaxCell base values nY nX halfwidth numMin minRange default y) (upto row.length)
  if nX < row.length then ub
  else ok (cells ++ List.replicate (nX - row.length) default)

/-- An element of the five fields of moments (calc_gradient.cpp:79-96), here one field of records. `pow(b, 2)` is `b * b`. -/
structure Moments (K : Type) where
  base0 : Fl K
  values0 : Fl K
  bb : Fl K
  bv : Fl K
  valid : Fl K

/-- The moments of one cell (calc_gradient.cpp:88-94). -/
def momentsAt (b v : Fl K) : Moments K :=
  if b.isValid && v.isValid then { base0 := b, values0 := v, bb := b * b, bv := b * v, valid := fin 1 }
  else { base0 := MV, values0 := MV, bb := MV, bv := MV, valid := fin 0 }

/-- The last loop of `LinearRegression` for one cell (calc_gradient.cpp:108-121). -/
def regressionCell (numMin : Int) (minRange default count meanX meanY meanXX meanXY : Fl K) : Fl K :=
  if count.ge (Fl.ofInt numMin) && meanXX.isValid && meanXY.isValid && meanX.isValid && (meanXX - meanX * meanX).fne (fin 0) then
    let range := Fl.sqrt (meanXX - meanX * meanX)
    let validRange := if minRange.isValid then (if !range.isValid then false else !(range.lt minRange)) else true
    if validRange then (meanXY - meanX * meanY) / (meanXX - meanX * meanX) else default
  else default

/-- `LinearRegression` (calc_gradient.cpp:76-124). -/
def regression (rnd : Rnd K) (base values : List (List (Fl K))) (nY nX : Nat) (halfwidth numMin : Int) (minRange default : Fl K) :
    Res (List (List (Fl K))) := do
  let m ← omp (grid2 nY nX fun y x => do
    let b ← vget2 base y x
    let v ← vget2 values y x
    ok (momentsAt b v))
  let meanX ← neighbourhood rnd (m.map (List.map Moments.base0)) halfwidth .mean
  let meanY ← neighbourhood rnd (m.map (List.map Moments.values0)) halfwidth .mean
  let meanXX ← neighbourhood rnd (m.map (List.map Moments.bb)) halfwidth .mean
  let meanXY ← neighbourhood rnd (m.map (List.map Moments.bv)) halfwidth .mean
  let count ← neighbourhood rnd (m.map (List.map Moments.valid)) halfwidth .sum
  omp (grid2 nY nX fun y x => do
    let c ← vget2 count y x
    let mXX ← vget2 meanXX y x
    let mXY ← vget2 meanXY y x
    let mX ← vget2 meanX y x
    let mY ← vget2 meanY y x
    ok (regressionCell numMin minRange default c mX mY mXX mXY))

/-- `gridpp::calc_gradient` (calc_gradient.cpp:6-126). -/
def calcGradient (rnd : Rnd K) (base values : List (List (Fl K))) (type : GradientType) (halfwidth numMin : Int) (minRange default : Fl K) :
    Res (List (List (Fl K))) :=
  if halfwidth ≤ 0 then .throw .invalidArgument
  else if minRange.isValid && minRange.lt (fin 0) then .throw .invalidArgument
  else if numMin < 0 then .throw .invalidArgument
  else if base.length = 0 then .throw .invalidArgument
  else if compatibleSize22 base values = false then .throw .invalidArgument
  else do
    let row0 ← vget base 0
    match type with
    | .minMax => mapM (minMaxRow base values base.length row0.length halfwidth numMin minRange default) (upto base.length)
    | .linearRegression => regression rnd base values base.length row0.length halfwidth numMin minRange default
    | .other => ok (initVec2 base.length row0.length default)

end
end Gridpp
