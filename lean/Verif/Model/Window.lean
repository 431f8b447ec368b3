import Verif.Model.Util

/-!
# src/api/window.cpp
-/

set_option linter.unusedSectionVars false

namespace Gridpp

open Fl Res

section
variable {K : Type} [Field K] [LinearOrder K] [FloorRing K] [HasSqrt K]

/-- `values` and `counts` (window.cpp:34-54), as a list of pairs `(values[x], counts[x])`. -/
def windowTable (row : List (Fl K)) : Res (List (Fl K × Fl K)) :=
  buildM row.length fun acc x => do
    let v ← vget row (x : Int)
    if x = 0 then ok (if v.isValid then (v, 1) else (0, 0))
    else do
      let p ← vget acc ((x : Int) - 1)
      ok (if v.isValid then (v + p.1, p.2 + 1) else (p.1, p.2))

/-- `start` and `end` of the accumulating branch (window.cpp:61-69). -/
def windowBounds (nX : Nat) (length : Int) (before : Bool) (x : Int) : Int × Int :=
  if before then (max 0 (x - length + 1), x)
  else (max 0 (x - length.tdiv 2), min ((nX : Int) - 1) (x + length.tdiv 2))

/-- One output of the accumulating branch (window.cpp:56-110). `n` is `array[y].size()`. -/
def windowAccCell (t : List (Fl K × Fl K)) (n nX : Nat) (length : Int) (s : Statistic) (before keep edges : Bool) (x : Int) :
    Res (Fl K) := do
  let b := windowBounds nX length before x
  let start := b.1
  let last := b.2
  let out0 ← (if start - 1 ≥ 0 then do
      let e ← vget t last
      let p ← vget t (start - 1)
      if (e.2 - p.2).fne 0 then ok (e.1 - p.1) else ok MV
    else do
      let e ← vget t last
      if e.2.fne 0 then ok e.1 else ok MV : Res (Fl K))
  if s = .count then do
    let e ← vget t last
    let p ← vget t (start - 1)
    ok (e.2 - p.2)
  else do
    let out1 ← (if s = .mean then do
        let e ← vget t last
        if e.2.fne 0 then do
          let p ← vget t (start - 1)
          ok (out0 / (e.2 - p.2))
        else ok out0
      else ok out0 : Res (Fl K))
    let out2 ← (if keep then do
        let e ← vget t last
        let p ← vget t (start - 1)
        if (e.2 - p.2).lt (Fl.ofInt (last - (start - 1))) then ok MV else ok out1
      else ok out1 : Res (Fl K))
    if edges then
      if !before then
        if x < length.tdiv 2 ∨ x + length.tdiv 2 + 1 > (n : Int) then ok MV else ok out2
      else
        if x < length - 1 then ok MV else ok out2
    else ok out2

/-- One output of the other statistics (window.cpp:113-152). -/
def windowStatCell (rnd : Rnd K) (row : List (Fl K)) (nX : Nat) (length : Int) (s : Statistic) (before keep edges : Bool) (x : Int) :
    Res (Fl K) := do
  let start0 := if before then x - length + 1 else x - length.tdiv 2
  let end0 := if before then x else x + length.tdiv 2
  let outside := decide (start0 < 0) || decide (end0 > (nX : Int) - 1)
  let start := if start0 < 0 then 0 else start0
  let last := if end0 > (nX : Int) - 1 then (nX : Int) - 1 else end0
  let stat ← mapM (fun i => vget row i) (irange start last)
  let countMissing := (stat.filter fun v => !v.isValid).length
  if keep && decide (countMissing > 0) then ok MV
  else if edges && outside then ok MV
  else calcStatistic rnd stat s

/-- One row (window.cpp:31-153): elements `x < array[y].size()` are written, the rest of the `nX` outputs stays `MV`.
Writing past the end of the output row is undefined. -/
def windowRow (rnd : Rnd K) (row : List (Fl K)) (nX : Nat) (length : Int) (s : Statistic) (before keep edges : Bool) :
    Res (List (Fl K)) := do
  let acc := decide (s = .mean ∨ s = .sum ∨ s = .count)
  let t ← (if acc then windowTable row else ok [] : Res (List (Fl K × Fl K)))
  let out ← mapM (fun x => do
    let v ← (if acc then windowAccCell t row.length nX length s before keep edges x
      else windowStatCell rnd row nX length s before keep edges x : Res (Fl K))
    if x < (nX : Int) then ok v else ub) (upto row.length)
  ok (out ++ List.replicate (nX - row.length) MV)

/-- `gridpp::window` (window.cpp:6-156). Simplification: the rows of the parallel loop are run in order. -/
def window (rnd : Rnd K) (array : List (List (Fl K))) (length : Int) (s : Statistic) (before keep edges : Bool) :
    Res (List (List (Fl K))) :=
  if length ≤ 0 then throw .invalidArgument
  else match array with
  | [] => ok (initVec2 0 0 MV)
  | row0 :: _ =>
    if row0.length = 0 then ok (initVec2 array.length 0 MV)
    else if length.tmod 2 = 0 ∧ before = false then throw .invalidArgument
    else omp (mapM (fun row => windowRow rnd row row0.length length s before keep edges) array)

end
end Gridpp
