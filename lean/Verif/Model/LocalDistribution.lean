import Verif.Model.Smart

/-! Model of `src/api/local_distribution_correction.cpp`. -/

namespace Gridpp
open Fl Res

section
variable {K : Type} [Field K] [LinearOrder K] [IsStrictOrderedRing K]

/-- One observation time at one point (local_distribution_correction.cpp:98-111): (reference, forecast, rho), `none` if the
pair is skipped. `pbackground` is only read if the observation is valid. -/
def ldcPair (pobs pbg : List (List (Fl K))) (rho : Fl K) (index t : Nat) : Res (Option (Fl K × Fl K × Fl K)) := do
  let o ← vget2 pobs (t : Int) (index : Int)
  if o.isValid then do
    let f ← vget2 pbg (t : Int) (index : Int)
    if f.isValid then
      if o.lt 0 || f.lt 0 then ok none
      else do
        Res.assert (o.ge 0)
        Res.assert (f.ge 0)
        ok (some (o, f, rho))
    else ok none
  else ok none

/-- `ref_rho`, `fcst_rho` and the correlations (local_distribution_correction.cpp:93-112), as one list of triples. -/
def ldcGather [HasGeo K] [HasSqrt K] [HasExp K] (T : RTree K) (points : Points K) (pobs pbg : List (List (Fl K))) (s : SF K)
    (p1 : Point K) (idx : List Nat) : Res (List (Fl K × Fl K × Fl K)) := do
  let r ← mapM (fun index : Nat => do
    let p2 ← points.getPoint (index : Int)
    let rho ← s.corrBg T p1 p2
    let row ← mapM (ldcPair pobs pbg rho index) (List.range pobs.length)
    ok (row.filterMap id)) idx
  ok r.flatten

/-- `std::vector(v.begin() + d0, v.begin() + d1)` (local_distribution_correction.cpp:123-124). -/
def subRange {α : Type} (v : List α) (d0 d1 : Int) : Res (List α) :=
  if 0 ≤ d0 ∧ d0 ≤ d1 ∧ d1 ≤ (v.length : Int) then ok ((v.take d1.toNat).drop d0.toNat) else ub

/-- The sorted and trimmed list of pairs (value, rho) (local_distribution_correction.cpp:117-124). The pairs are sorted
with the position instead of the rho as second element, which is only carried along by the sort. -/
def ldcTrim [FloorRing K] (A : Arma K) (values rhos : List (Fl K)) (mn mx : Fl K) : Res (List (Fl K × Fl K)) := do
  let sorted ← sortPairs A values.zipIdx
  let pairs ← mapM (fun e : Fl K × Nat => do
    let r ← vget rhos (e.2 : Int)
    ok (e.1, r)) sorted
  let d0 ← Fl.truncInt (ofNat values.length * mn)
  let d1 ← Fl.truncInt (ofNat values.length * mx)
  subRange pairs d0 d1

/-- The cumulative sums `quantiles[s + 1] = quantiles[s] + rho[s]` from 0 (local_distribution_correction.cpp:135-141). -/
def cumSums : Fl K → List (Fl K) → List (Fl K)
  | a, [] => [a]
  | a, r :: t => a :: cumSums (a + r) t

/-- The normalized quantiles (local_distribution_correction.cpp:142-154); the first stays 0. -/
def ldcQuantiles (rhos : List (Fl K)) (mn mx : Fl K) : List (Fl K) :=
  let c := cumSums 0 rhos
  let sum := c.getLastD 0
  0 :: c.tail.map fun q => mn + q / sum * (mx - mn)

/-- The correction of one background value (local_distribution_correction.cpp:156-198) with the curve `ref`, `fcst`. -/
def ldcValue [HasExp K] (b sumRho : Fl K) (ref refQ fcst fcstQ : List (Fl K)) : Res (Fl K) :=
  let lastRef := ref.getLastD 0
  let lastFcst := fcst.getLastD 0
  if b.lt (fin (1 / 100)) then ok 0
  else if lastRef.le 0 then
    if b.lt (fin 3 * lastFcst) then ok 0
    else if b.lt (fin (1 / 10)) then ok 0
    else ok b
  else if b.ge lastFcst then ok (b + (lastRef - lastFcst))
  else do
    let q ← interpolate b fcst fcstQ
    let newRef ← interpolate q refQ ref
    let w0 := 1 - Fl.exp (-(fin (1 / 100)) * sumRho)
    let w1 := 1 - w0
    ok (w0 * newRef + w1 * b)

/-- One output cell (local_distribution_correction.cpp:69-199). -/
def ldcCell [HasGeo K] [HasSqrt K] [HasExp K] [FloorRing K] (T : RTree K) (A : Arma K) (g : Grid K) (background : List (List (Fl K)))
    (points : Points K) (pobs pbg : List (List (Fl K))) (s : SF K) (mn mx : Fl K) (minPoints : Int) (y x : Int) : Res (Fl K) := do
  let b ← vget2 background y x
  if b.isValid then do
    let lat ← vget2 g.lats y x
    let lon ← vget2 g.lons y x
    let p1 ← g.getPoint y x
    let radius ← s.locDist T p1
    let idx ← points.getNeighbours T lat lon radius true
    let l ← ldcGather T points pobs pbg s p1 idx
    if minPoints ≤ (l.length : Int) then do
      let rhos := l.map fun e => e.2.2
      let ref ← ldcTrim A (l.map fun e => e.1) rhos mn mx
      let fcst ← ldcTrim A (l.map fun e => e.2.1) rhos mn mx
      Res.assert (decide (ref.length = fcst.length))
      ldcValue b (rhos.foldl (· + ·) 0) (0 :: ref.map Prod.fst) (ldcQuantiles (ref.map Prod.snd) mn mx)
        (0 :: fcst.map Prod.fst) (ldcQuantiles (fcst.map Prod.snd) mn mx)
    else ok b
  else ok b

/-- `local_distribution_correction` with several times (local_distribution_correction.cpp:33-203). `background[0]` is read
first; the message of the exception reads `pobs[0]` and `pbackground[0]`. -/
def localDistributionCorrection [HasGeo K] [HasSqrt K] [HasExp K] [FloorRing K] (T : RTree K) (A : Arma K) (g : Grid K)
    (background : List (List (Fl K))) (points : Points K) (pobs pbg : List (List (Fl K))) (s : SF K) (mn mx : Fl K) (minPoints : Int) :
    Res (List (List (Fl K))) := do
  let row ← vget background 0
  if pobs.length ≠ pbg.length then do
    let _ ← vget pobs 0
    let _ ← vget pbg 0
    throw .invalidArgument
  else Res.omp (grid2 background.length row.length (ldcCell T A g background points pobs pbg s mn mx minPoints))

/-- `local_distribution_correction` with one time (local_distribution_correction.cpp:18-32). -/
def localDistributionCorrection1 [HasGeo K] [HasSqrt K] [HasExp K] [FloorRing K] (T : RTree K) (A : Arma K) (g : Grid K)
    (background : List (List (Fl K))) (points : Points K) (pobs pbg : List (Fl K)) (s : SF K) (mn mx : Fl K) (minPoints : Int) :
    Res (List (List (Fl K))) :=
  localDistributionCorrection T A g background points [pobs] [pbg] s mn mx minPoints

end
end Gridpp
