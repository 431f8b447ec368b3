import Verif.Model.Util

/-!
# src/api/curve.cpp, src/api/quantile_mapping.cpp
-/

set_option linter.unusedSectionVars false

namespace Gridpp

open Fl Res

/-- `gridpp::Extrapolation` (include/gridpp.h:79-85). `other`: any other integer value, which an enum can hold. -/
inductive Extrapolation where
  | oneToOne | meanSlope | nearestSlope | zero | unchanged | other
  deriving DecidableEq, Repr

section
variable {K : Type} [Field K] [LinearOrder K]

/-- `gridpp::apply_curve(float, ...)` (curve.cpp:6-77). -/
def applyCurve (input : Fl K) (ref fcst : List (Fl K)) (below above : Extrapolation) : Res (Fl K) :=
  if ref.length ≠ fcst.length then throw .invalidArgument
  else if ref.length = 0 then throw .invalidArgument
  else do
    let c : Int := fcst.length
    let smallestObs ← vget ref 0
    let smallestFcst ← vget fcst 0
    let largestObs ← vget ref (c - 1)
    let largestFcst ← vget fcst (c - 1)
    if input.ge smallestFcst && input.le largestFcst then interpolate input fcst ref
    else do
      let isBelow := input.le smallestFcst
      let nearestObs := if isBelow then smallestObs else largestObs
      let nearestFcst := if isBelow then smallestFcst else largestFcst
      let policy := if isBelow then below else above
      if policy = .unchanged then ok input
      else do
        let slope ← (
          if policy = .zero then ok 0
          else if policy = .oneToOne ∨ c ≤ 1 then ok 1
          else if policy = .meanSlope then ok ((largestObs - smallestObs) / (largestFcst - smallestFcst))
          else if policy = .nearestSlope then
            if isBelow then do
              let r1 ← vget ref 1
              let r0 ← vget ref 0
              let f1 ← vget fcst 1
              let f0 ← vget fcst 0
              ok ((r1 - r0) / (f1 - f0))
            else do
              let r1 ← vget ref (c - 1)
              let r0 ← vget ref (c - 2)
              let f1 ← vget fcst (c - 1)
              let f0 ← vget fcst (c - 2)
              ok ((r1 - r0) / (f1 - f0))
          else throw .invalidArgument : Res (Fl K))
        ok (nearestObs + slope * (input - nearestFcst))

/-- `gridpp::apply_curve(const vec&, ...)` (curve.cpp:79-94). -/
def applyCurveVec (fcst : List (Fl K)) (ref curve : List (Fl K)) (below above : Extrapolation) : Res (List (Fl K)) :=
  if ref.length ≠ curve.length then throw .invalidArgument
  else if ref.length = 0 then throw .invalidArgument
  else omp (mapM (fun v => applyCurve v ref curve below above) fcst)

/-- `gridpp::apply_curve(const vec2&, ...)` with one curve (curve.cpp:96-108). -/
def applyCurveVec2 (fcst : List (List (Fl K))) (ref curve : List (Fl K)) (below above : Extrapolation) : Res (List (List (Fl K))) :=
  if ref.length ≠ curve.length then throw .invalidArgument
  else if ref.length = 0 then throw .invalidArgument
  else mapM (fun row => applyCurveVec row ref curve below above) fcst

/-- `gridpp::compatible_size(const vec2&, const vec3&)` (util.cpp:450-463): only the first rows are compared. -/
def compatibleSize23 {α β : Type} : List (List α) → List (List (List β)) → Bool
  | [], [] => true
  | a :: as, b :: bs => decide (as.length = bs.length) && decide (a.length = b.length)
  | _, _ => false

/-- `gridpp::compatible_size(const vec3&, const vec3&)` (util.cpp:464-476): equal sizes at every level. -/
def compatibleSize33 {α β : Type} (a : List (List (List α))) (b : List (List (List β))) : Bool :=
  decide (a.map (List.map List.length) = b.map (List.map List.length))

/-- `gridpp::apply_curve(const vec2&, const vec3&, const vec3&, ...)` (curve.cpp:110-133); `fcst[0]` is read without a
check that `fcst` is not empty. -/
def applyCurveSpatial (fcst : List (List (Fl K))) (ref curve : List (List (List (Fl K)))) (below above : Extrapolation) :
    Res (List (List (Fl K))) :=
  if compatibleSize33 ref curve = false then throw .invalidArgument
  else if compatibleSize23 fcst ref = false then throw .invalidArgument
  else if compatibleSize23 fcst curve = false then throw .invalidArgument
  else do
    let row0 ← vget fcst 0
    omp (grid2 fcst.length row0.length fun y x => do
      let input ← vget2 fcst y x
      let r ← vget2 ref y x
      let f ← vget2 curve y x
      applyCurve input r f below above)

/-- State of the loop of `monotonize_curve`: `deviation`, `x_min`, `x_max`, `prev`, and `new_indices` with the last
element first. -/
structure MonoState (K : Type) where
  dev : Bool
  xmin : Fl K
  xmax : Fl K
  prev : Fl K
  idx : List Nat

/-- `float tol = 0.1` (curve.cpp:178); exact here. -/
def monoTol : Fl K := fin (1 / 10)

/-- Removal of the points inside the deviation (curve.cpp:195-204): pop from the back while `!(fcst[index] < x_min - tol)`. -/
def monoPop (fcst : List (Fl K)) (xmin : Fl K) : List Nat → Res (List Nat)
  | [] => ok []
  | i :: t => do
    let f ← vget fcst (i : Int)
    if f.lt (xmin - monoTol) then ok (i :: t) else monoPop fcst xmin t

/-- One iteration of the loop (curve.cpp:179-226). -/
def monoStep (ref fcst : List (Fl K)) (s : MonoState K) (i : Nat) : Res (MonoState K) := do
  let x ← vget fcst (i : Int)
  let y ← vget ref (i : Int)
  assert x.isValid
  assert y.isValid
  if s.dev then
    let xmin := if x.lt s.xmin then x else s.xmin
    if x.gt (s.xmax + monoTol) then do
      let idx ← monoPop fcst xmin s.idx
      ok { dev := false, xmin := xmin, xmax := x, prev := x, idx := i :: idx }
    else ok { s with xmin := xmin }
  else if x.le (s.prev + monoTol) then ok { s with dev := true, xmin := x }
  else ok { s with prev := x, xmax := x, idx := i :: s.idx }

/-- The clean-up when the curve ends in a deviation (curve.cpp:227-238): for `j` from the last position down to 0, read
`new_indices[j]` and pop the *back* if `fcst[new_indices[j]] >= x_min`. `n` is `j + 1`; `stack` has the back first. -/
def monoFinish (fcst : List (Fl K)) (xmin : Fl K) : Nat → List Nat → Res (List Nat)
  | 0, stack => ok stack
  | j + 1, stack => do
    let index ← vget stack.reverse (j : Int)
    let f ← vget fcst (index : Int)
    if f.ge xmin then monoFinish fcst xmin j stack.tail else monoFinish fcst xmin j stack

/-- `gridpp::monotonize_curve(vec, vec, vec&)` (curve.cpp:134-250). Returns `(output_ref, output_fcst)`. -/
def monotonizeCurve (ref0 fcst0 : List (Fl K)) : Res (List (Fl K) × List (Fl K)) :=
  if ref0.length ≠ fcst0.length then throw .invalidArgument
  else if ref0.length = 0 then throw .invalidArgument
  else do
    let kept := (ref0.zip fcst0).filter fun p => p.2.isValid && p.1.isValid
    let ref := kept.map Prod.fst
    let fcst := kept.map Prod.snd
    let x0 ← vget fcst 0
    let s ← foldM (monoStep ref fcst) { dev := false, xmin := x0, xmax := x0, prev := x0, idx := [0] } ((List.range kept.length).drop 1)
    let idx ← (if s.dev then monoFinish fcst s.xmin s.idx.length s.idx else ok s.idx : Res (List Nat))
    let r ← mapM (fun i : Nat => vget ref (i : Int)) idx.reverse
    let f ← mapM (fun i : Nat => vget fcst (i : Int)) idx.reverse
    ok (r, f)

/-- `gridpp::quantile_mapping_curve` (quantile_mapping.cpp:5-45). Returns `(output_ref, output_fcst)`. With quantiles,
the *unsorted* arrays are indexed. -/
def quantileMappingCurve [FloorRing K] (ref fcst : List (Fl K)) (quantiles : List (Fl K)) : Res (List (Fl K) × List (Fl K)) :=
  if ref.length ≠ fcst.length then throw .invalidArgument
  else if quantiles.any (fun q => !q.isValid || q.gt 1 || q.lt 0) then throw .invalidArgument
  else if ref.length = 0 then ok (ref, fcst)
  else if ref.length = 1 then ok (ref, fcst)
  else do
    let refSort ← stdSort ref
    let fcstSort ← stdSort fcst
    if quantiles.length = 0 then ok (refSort, fcstSort)
    else do
      let out ← mapM (fun q => do
        let index ← Fl.truncInt (q * Fl.ofInt ((fcstSort.length : Int) - 1))
        let f ← vget fcst index
        let r ← vget ref index
        ok (r, f)) quantiles
      ok (out.map Prod.fst, out.map Prod.snd)

end
end Gridpp
