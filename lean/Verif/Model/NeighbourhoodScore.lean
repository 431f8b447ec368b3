import Verif.Model.Gridding
import Verif.Model.Neighbourhood
import Verif.Model.Score

/-! Model of `src/api/neighbourhood_score.cpp`. -/

set_option linter.unusedSectionVars false

namespace Gridpp
open Fl Res

section
variable {K : Type} [Field K] [LinearOrder K] [IsStrictOrderedRing K] [FloorRing K] [HasSqrt K] [HasGeo K]

/-- The conversion of `bool` to `float`. -/
def ofBool (b : Bool) : Fl K := if b then fin 1 else fin 0

/-- The four contingency values of one cell (neighbourhood_score.cpp:31-40): forecast `f`, gridded reference `r`. -/
def cellTable (threshold f r : Fl K) : Counts K :=
  if r.isValid && f.isValid then
    if f.gt threshold then ⟨ofBool (r.gt threshold), ofBool (r.le threshold), fin 0, fin 0⟩
    else ⟨fin 0, fin 0, ofBool (r.gt threshold), ofBool (r.le threshold)⟩
  else ⟨fin 0, fin 0, fin 0, fin 0⟩

/-- `gridpp::neighbourhood_score` (neighbourhood_score.cpp:6-60). The four fields are filled in one pass. -/
def neighbourhoodScore (T : RTree K) (rnd : Rnd K) (grid : Grid K) (points : Points K) (fcst : List (List (Fl K)))
    (ref : List (Fl K)) (halfWidth : Int) (metric : Metric) (threshold : Fl K) : Res (List (List (Fl K))) := do
  let comp ← compatibleSizeG2 grid fcst
  if comp = false then throw .invalidArgument
  else if halfWidth ≤ 0 then throw .invalidArgument
  else do
    let row0 ← vget fcst 0
    let refGrid ← griddingNearestG T rnd grid points ref 1 .mean
    let t ← omp (grid2 fcst.length row0.length fun y x => do
      let r ← vget2 refGrid y x
      let f ← vget2 fcst y x
      ok (cellTable threshold f r))
    let a ← neighbourhood rnd (t.map (List.map Counts.a)) halfWidth .mean
    let b ← neighbourhood rnd (t.map (List.map Counts.b)) halfWidth .mean
    let c ← neighbourhood rnd (t.map (List.map Counts.c)) halfWidth .mean
    let d ← neighbourhood rnd (t.map (List.map Counts.d)) halfWidth .mean
    omp (grid2 fcst.length row0.length fun y x => do
      let a ← vget2 a y x
      let b ← vget2 b y x
      let c ← vget2 c y x
      let d ← vget2 d y x
      calcScore a b c d metric)

end
end Gridpp
