import Verif.Model.OI

/-! Model of `src/api/smart.cpp`. -/

namespace Gridpp
open Fl Res

section
variable {K : Type} [Field K] [LinearOrder K] [IsStrictOrderedRing K]

/-- `std::sort` with `sort_pair_first` (smart.cpp:5-10, 46): undefined for NaN, which is not ordered (whatever the size). -/
def sortPairs (A : Arma K) (l : List (Fl K × Nat)) : Res (List (Fl K × Nat)) :=
  if l.any (fun e => e.1.isNan) then ub else ok (A.sortFirst l)

/-- The mean of the values at the best `num` places of a sorted list (smart.cpp:48-61); a negative `num` counts as 0. -/
def smartMean (ivalues : List (List (Fl K))) (idx : List (Nat × Nat)) (rhos : List (Fl K × Nat)) (num : Int) : Res (Fl K) := do
  let values ← mapM (fun e : Fl K × Nat => do
    let c ← vget idx (e.2 : Int)
    vget2 ivalues (c.1 : Int) (c.2 : Int)) (rhos.reverse.take num.toNat)
  if 0 < values.length then ok (values.foldl (· + ·) 0 / ofNat values.length) else ok nan

/-- One output cell (smart.cpp:34-62). The assertion (47) reads the first and the last pair. -/
def smartCell [HasGeo K] [HasSqrt K] [HasExp K] (T : RTree K) (A : Arma K) (ig og : Grid K) (ivalues : List (List (Fl K))) (num : Int)
    (s : SF K) (i j : Int) : Res (Fl K) := do
  let p1 ← og.getPoint i j
  let dist ← s.locDist T p1
  let lat ← vget2 og.lats i j
  let lon ← vget2 og.lons i j
  let idx ← ig.getNeighbours T lat lon dist true
  let pairs ← mapM (fun k : Nat => do
    let c ← vget idx (k : Int)
    let p2 ← ig.getPoint (c.1 : Int) (c.2 : Int)
    let rho ← s.corr T p1 p2
    ok (rho, k)) (List.range idx.length)
  let rhos ← sortPairs A pairs
  let a ← vget rhos 0
  let b ← vget rhos ((rhos.length : Int) - 1)
  Res.assert (a.1.le b.1)
  smartMean ivalues idx rhos num

/-- `smart` (smart.cpp:12-66). Not parallel. -/
def smart [HasGeo K] [HasSqrt K] [HasExp K] (T : RTree K) (A : Arma K) (ig og : Grid K) (ivalues : List (List (Fl K))) (num : Int)
    (s : SF K) : Res (List (List (Fl K))) := do
  let n ← og.size
  grid2 n.1 n.2 (smartCell T A ig og ivalues num s)

end
end Gridpp
