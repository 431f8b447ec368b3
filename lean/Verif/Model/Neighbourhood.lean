import Verif.Model.Util

/-!
# src/api/neighbourhood.cpp
-/

set_option linter.unusedSectionVars false

namespace Gridpp

open Fl Res

section
variable {K : Type} [Field K] [LinearOrder K] [FloorRing K] [HasSqrt K]

/-- One entry of the accumulated tables `values`, `counts` (neighbourhood.cpp:57-97), from the entries to the left,
above and diagonal (absent in the first column/row). `values` is `double` there; arithmetic is exact here. -/
def satCell (left up diag : Option (Fl K × Int)) (value : Fl K) : Fl K × Int :=
  match left, up, diag with
  | some l, some u, some d =>
    if value.isValid then (l.1 + u.1 - d.1 + value, l.2 + u.2 - d.2 + 1) else (l.1 + u.1 - d.1, l.2 + u.2 - d.2)
  | none, some u, _ => if value.isValid then (u.1 + value, u.2 + 1) else u
  | some l, _, _ => if value.isValid then (l.1 + value, l.2 + 1) else l
  | none, none, _ => if value.isValid then (value, 1) else (0, 0)

/-- One row of the accumulated tables (neighbourhood.cpp:56-98); `prev` is the row above, if any. -/
def satRow (nX : Nat) (prev : Option (List (Fl K × Int))) (row : List (Fl K)) : Res (List (Fl K × Int)) :=
  buildM nX fun acc j => do
    let value ← vget row (j : Int)
    let left ← (if j = 0 then ok none else do let l ← vget acc ((j : Int) - 1); ok (some l) : Res (Option (Fl K × Int)))
    let up ← (match prev with
      | none => ok none
      | some p => do let u ← vget p (j : Int); ok (some u) : Res (Option (Fl K × Int)))
    let diag ← (match prev with
      | some p => if j = 0 then ok none else do let d ← vget p ((j : Int) - 1); ok (some d)
      | none => ok none : Res (Option (Fl K × Int)))
    ok (satCell left up diag value)

/-- The accumulated tables (neighbourhood.cpp:46-99). -/
def satTable (nY nX : Nat) (input : List (List (Fl K))) : Res (List (List (Fl K × Int))) :=
  buildM nY fun acc i => do
    let row ← vget input (i : Int)
    satRow nX acc.getLast? row

/-- Mean, Sum and Count (neighbourhood.cpp:45-145). -/
def neighbourhoodSum (input : List (List (Fl K))) (nY nX : Nat) (halfwidth : Int) (s : Statistic) :
    Res (List (List (Fl K))) := do
  let table ← satTable nY nX input
  omp (grid2 nY nX fun i j => do
    let i1 := min ((nY : Int) - 1) (i + halfwidth)
    let j1 := min ((nX : Int) - 1) (j + halfwidth)
    let i0 := i - halfwidth - 1
    let j0 := j - halfwidth - 1
    let c11 ← vget2 table i1 j1
    let (c00, c10, c01) ← (if i0 ≥ 0 ∧ j0 ≥ 0 then do
        let a ← vget2 table i0 j0
        let b ← vget2 table i1 j0
        let c ← vget2 table i0 j1
        ok (a, b, c)
      else if j0 ≥ 0 then do
        let b ← vget2 table i1 j0
        ok ((0, 0), b, (0, 0))
      else if i0 ≥ 0 then do
        let c ← vget2 table i0 j1
        ok ((0, 0), (0, 0), c)
      else ok ((0, 0), (0, 0), (0, 0)) : Res ((Fl K × Int) × (Fl K × Int) × (Fl K × Int)))
    let value := c11.1 + c00.1 - c10.1 - c01.1
    let count := c11.2 + c00.2 - c10.2 - c01.2
    if s = .count then ok (Fl.ofInt count)
    else if count > 0 then ok (if s = .mean then value / Fl.ofInt count else value)
    else ok MV)

/-- All values in the square around `(i, j)` clipped to the grid, in row-major order; the loops at
neighbourhood.cpp:166-175, 586-593. -/
def collectSquare {α : Type} (input : List (List α)) (nY nX : Nat) (halfwidth : Int) (i j : Int) : Res (List α) := do
  let rows ← mapM (fun ii => mapM (fun jj => vget2 input ii jj)
      (irange (max 0 (j - halfwidth)) (min ((nX : Int) - 1) (j + halfwidth))))
    (irange (max 0 (i - halfwidth)) (min ((nY : Int) - 1) (i + halfwidth)))
  ok rows.flatten

/-- `Ni * Nj` (neighbourhood.cpp:160-163), with the two asserts. -/
def squareSize (nY nX : Nat) (halfwidth : Int) (i j : Int) : Res Int := do
  let Ni := min ((nY : Int) - 1) (i + halfwidth) - max 0 (i - halfwidth) + 1
  let Nj := min ((nX : Int) - 1) (j + halfwidth) - max 0 (j - halfwidth) + 1
  assert (Ni > 0)
  assert (Nj > 0)
  ok (Ni * Nj)

/-- Min and Max (neighbourhood.cpp:146-210). -/
def neighbourhoodMinMax (rnd : Rnd K) (input : List (List (Fl K))) (nY nX : Nat) (halfwidth : Int) (s : Statistic) :
    Res (List (List (Fl K))) :=
  omp (mapM (fun i =>
    if i < halfwidth ∨ i ≥ (nY : Int) - halfwidth then
      mapM (fun j => do
        let N ← squareSize nY nX halfwidth i j
        let all ← collectSquare input nY nX halfwidth i j
        let neighbourhood := all.filter isValid
        -- assert(index < Ni*Nj) before each push_back
        assert ((neighbourhood.length : Int) ≤ N)
        calcStatistic rnd neighbourhood s) (upto nX)
    else do
      let slivers ← mapM (fun j => do
        let sliver ← mapM (fun ii => vget2 input ii j) (irange (i - halfwidth) (i + halfwidth))
        calcStatistic rnd sliver s) (upto nX)
      mapM (fun j => do
        let curr ← mapM (fun jj => vget slivers jj)
          (irange (max 0 (j - halfwidth)) (min ((nX : Int) - 1) (j + halfwidth)))
        calcStatistic rnd curr s) (upto nX)) (upto nY))

/-- Anonymous `neighbourhood_brute_force(const vec2&, ...)` (neighbourhood.cpp:557-603). -/
def neighbourhoodBrute (rnd : Rnd K) (input : List (List (Fl K))) (halfwidth : Int) (s : Statistic) (quantile : Fl K) :
    Res (List (List (Fl K))) :=
  if halfwidth < 0 then throw .invalidArgument
  else match input with
  | [] => ok []
  | row0 :: _ =>
    if row0.length = 0 then ok []
    else
      let nY := input.length
      let nX := row0.length
      omp (grid2 nY nX fun y x => do
        let N ← squareSize nY nX halfwidth y x
        let neighbourhood ← collectSquare input nY nX halfwidth y x
        assert ((neighbourhood.length : Int) = N)
        if s = .quantile then calcQuantile neighbourhood quantile
        else calcStatistic rnd neighbourhood s)

/-- `gridpp::neighbourhood(const vec2&, int, Statistic)` for Mean, Sum, Count, Min, Max and the brute force
statistics (neighbourhood.cpp:28-145, 146-210, 236-241). Std/Variance are below because they call this function. -/
def neighbourhoodBasic (rnd : Rnd K) (input : List (List (Fl K))) (halfwidth : Int) (s : Statistic) :
    Res (List (List (Fl K))) :=
  if halfwidth < 0 then throw .invalidArgument
  else if s = .quantile then throw .invalidArgument
  else match input with
  | [] => ok []
  | row0 :: _ =>
    if row0.length = 0 then ok []
    else
      let nY := input.length
      let nX := row0.length
      if s = .mean ∨ s = .sum ∨ s = .count then neighbourhoodSum input nY nX halfwidth s
      else if s = .min ∨ s = .max then neighbourhoodMinMax rnd input nY nX halfwidth s
      else neighbourhoodBrute rnd input halfwidth s 0

/-- `gridpp::neighbourhood(const vec2&, int, Statistic)` (neighbourhood.cpp:28-242). -/
def neighbourhood (rnd : Rnd K) (input : List (List (Fl K))) (halfwidth : Int) (s : Statistic) :
    Res (List (List (Fl K))) :=
  if s = .std ∨ s = .variance then
    if halfwidth < 0 then throw .invalidArgument
    else match input with
    | [] => ok []
    | row0 :: _ =>
      if row0.length = 0 then ok []
      else do
        let nY := input.length
        let nX := row0.length
        let mean ← neighbourhoodBasic rnd input halfwidth .mean
        let input2 ← grid2 nY nX fun y x => do
          let v ← vget2 input y x
          ok (v * v)
        let mean2 ← neighbourhoodBasic rnd input2 halfwidth .mean
        grid2 nY nX fun y x => do
          let m2 ← vget2 mean2 y x
          let m ← vget2 mean y x
          ok (if s = .std then Fl.sqrt (m2 - m * m) else m2 - m * m)
  else neighbourhoodBasic rnd input halfwidth s

/-- `gridpp::neighbourhood(const vec3&, int, Statistic)` (neighbourhood.cpp:12-27). -/
def neighbourhood3 (rnd : Rnd K) (input : List (List (List (Fl K)))) (halfwidth : Int) (s : Statistic) :
    Res (List (List (Fl K))) := do
  let row0 ← vget input 0
  let _ ← vget row0 0
  let flat ← grid2 input.length row0.length fun y x => do
    let v ← vget2 input y x
    calcStatistic rnd v s
  neighbourhood rnd flat halfwidth s

/-- `gridpp::neighbourhood_brute_force(const vec2&, ...)` (neighbourhood.cpp:528-530). -/
def neighbourhoodBruteForce (rnd : Rnd K) (input : List (List (Fl K))) (halfwidth : Int) (s : Statistic) :
    Res (List (List (Fl K))) := neighbourhoodBrute rnd input halfwidth s 0

/-- `gridpp::neighbourhood_quantile(const vec2&, float, int)` (neighbourhood.cpp:534-536). -/
def neighbourhoodQuantile (rnd : Rnd K) (input : List (List (Fl K))) (quantile : Fl K) (halfwidth : Int) :
    Res (List (List (Fl K))) := neighbourhoodBrute rnd input halfwidth .quantile quantile

/-- Anonymous `neighbourhood_brute_force(const vec3&, ...)` (neighbourhood.cpp:604-654). Reads `input[ii][jj][e]` for
`e < nEns` with `nEns = input[0][0].size()`. -/
def neighbourhoodBrute3 (rnd : Rnd K) (input : List (List (List (Fl K)))) (halfwidth : Int) (s : Statistic)
    (quantile : Fl K) : Res (List (List (Fl K))) :=
  if halfwidth < 0 then throw .invalidArgument
  else match input with
  | [] => ok []
  | [] :: _ => ok []
  | (c00 :: r0) :: _ =>
    if c00.length = 0 then ok []
    else
      let nY := input.length
      let nX := (c00 :: r0).length
      let nEns := c00.length
      omp (grid2 nY nX fun y x => do
        let N ← squareSize nY nX halfwidth y x
        let cells ← collectSquare input nY nX halfwidth y x
        let members ← mapM (fun c => mapM (fun e => vget c e) (upto nEns)) cells
        let neighbourhood := members.flatten
        assert ((neighbourhood.length : Int) = N * nEns)
        if s = .quantile then calcQuantile neighbourhood quantile
        else calcStatistic rnd neighbourhood s)

end
end Gridpp
