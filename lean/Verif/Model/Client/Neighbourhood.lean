import Verif.Model.Client.WindDirection
import Verif.Model.Client.Util
import Verif.Model.Neighbourhood

/-!
# src/client/Calibrator/Neighbourhood.cpp

The loops read the copy `raw` of the field, so the values of a member are read once here, as a matrix. An exception inside an OpenMP loop
is the end of the program. The counting of calls for a message (`count_stat`) is left out.
-/

set_option linter.unusedSectionVars false

namespace Gridpp.Client
open Fl Res

variable {K : Type} [Field K] [LinearOrder K] [FloorRing K] [HasSqrt K]

/-- The members of class `CalibratorNeighbourhood` (src/client/Calibrator/Neighbourhood.h). -/
structure NbOpts (K : Type) where
  radius : Int
  stat : StatType
  quantile : Fl K
  fast : Bool
  approx : Bool

/-- The constructor (src/client/Calibrator/Neighbourhood.cpp:7-39), after the options are parsed; `quantile` is `none` if the option is
not given. -/
def nbNew (radius : Int) (fast approx : Bool) (stat : StatType) (quantile : Option (Fl K)) : Res (NbOpts K) :=
  if radius < 0 then error
  else match stat with
  | .quantile =>
    match quantile with
    | none => error
    | some q => if !isValid q || q.lt (fin 0) || q.gt (fin 1) then error else ok ⟨radius, stat, q, fast, approx⟩
  | _ => ok ⟨radius, stat, MV, fast, approx⟩

/-- One entry of `values` and `counts` (src/client/Calibrator/Neighbourhood.cpp:94-134) from the entries to the left, above and diagonal.
`counts` holds whole numbers in `float`s; they are integers here. -/
def nbCell (left up diag : Option (Fl K × Int)) (value : Fl K) : Fl K × Int :=
  match left, up, diag with
  | some l, some u, some d =>
    if isValid value then (l.1 + u.1 - d.1 + value, l.2 + u.2 - d.2 + 1) else (l.1 + u.1 - d.1, l.2 + u.2 - d.2)
  | none, some u, _ => if isValid value then (u.1 + value, u.2 + 1) else u
  | some l, _, _ => if isValid value then (l.1 + value, l.2 + 1) else l
  | none, none, _ => if isValid value then (value, 1) else (0, 0)

/-- One row of the tables (src/client/Calibrator/Neighbourhood.cpp:93-135); `prev` is the row above, if any. -/
def nbRow (nLon : Nat) (prev : Option (List (Fl K × Int))) (row : List (Fl K)) : Res (List (Fl K × Int)) :=
  buildM nLon fun acc j => do
    let value ← vget row (j : Int)
    let left ← (if j = 0 then ok none else do let l ← vget acc ((j : Int) - 1); ok (some l) : Res (Option (Fl K × Int)))
    let up ← (match prev with
      | none => ok none
      | some p => do let u ← vget p (j : Int); ok (some u) : Res (Option (Fl K × Int)))
    let diag ← (match prev with
      | some p => if j = 0 then ok none else do let d ← vget p ((j : Int) - 1); ok (some d)
      | none => ok none : Res (Option (Fl K × Int)))
    ok (nbCell left up diag value)

/-- The tables (src/client/Calibrator/Neighbourhood.cpp:83-136). -/
def nbTable (nLat nLon : Nat) (input : List (List (Fl K))) : Res (List (List (Fl K × Int))) :=
  buildM nLat fun acc i => do
    let row ← vget input (i : Int)
    nbRow nLon acc.getLast? row

/-- The three other corners (src/client/Calibrator/Neighbourhood.cpp:146-168): 00, 10, 01. -/
def nbCorners (table : List (List (Fl K × Int))) (i0 j0 i1 j1 : Int) : Res ((Fl K × Int) × (Fl K × Int) × (Fl K × Int)) :=
  if i0 ≥ 0 ∧ j0 ≥ 0 then do
    let a ← vget2 table i0 j0
    let b ← vget2 table i1 j0
    let c ← vget2 table i0 j1
    ok (a, b, c)
  else if j0 ≥ 0 then do
    let b ← vget2 table i1 j0
    ok ((0, 0), b, (0, 0))
  else if i0 ≥ 0 then do
    let c ← vget2 table i0 j1
    ok ((0, 0), (0, 0), c)
  else ok ((0, 0), (0, 0), (0, 0))

/-- One cell of the mean or sum (src/client/Calibrator/Neighbourhood.cpp:141-176). -/
def nbSumCell (table : List (List (Fl K × Int))) (nLat nLon : Nat) (radius : Int) (s : StatType) (e : Nat) (f : FieldC K) (i j : Nat) :
    Res (FieldC K) := do
  let i1 := min ((nLat : Int) - 1) (i + radius)
  let j1 := min ((nLon : Int) - 1) (j + radius)
  let i0 := (i : Int) - radius - 1
  let j0 := (j : Int) - radius - 1
  let c11 ← vget2 table i1 j1
  let c ← nbCorners table i0 j0 i1 j1
  let value := c11.1 + c.1.1 - c.2.1.1 - c.2.2.1
  let count := c11.2 + c.1.2 - c.2.1.2 - c.2.2.2
  if count > 0 then f.set i j e (if s = .mean then value / Fl.ofInt count else value) else ok f

/-- The statistic of the box around `(i, j)`, value by value (src/client/Calibrator/Neighbourhood.cpp:194-211, 256-273). The loops over the
box and the two asserts are those of the library, see `collectSquare` and `squareSize`. -/
def nbBoxStat (o : NbOpts K) (input : List (List (Fl K))) (nLat nLon : Nat) (radius i j : Int) : Res (Fl K) := do
  let n ← squareSize nLat nLon radius i j
  let neighbourhood ← collectSquare input nLat nLon radius i j
  assert (decide ((neighbourhood.length : Int) = n))
  calculateStat neighbourhood o.stat o.quantile

/-- The statistic of a column of the box (src/client/Calibrator/Neighbourhood.cpp:219-225). A negative size is a huge one, for which the
constructor of the vector throws. -/
def nbSliver (o : NbOpts K) (input : List (List (Fl K))) (radius i j : Int) : Res (Fl K) :=
  if 2 * radius + 1 < 0 then .abort
  else do
    let sliver ← mapM (fun ii => vget2 input ii j) (irange (i - radius) (i + radius))
    calculateStat sliver o.stat o.quantile

/-- The statistic of the statistics of the columns (src/client/Calibrator/Neighbourhood.cpp:229-234). -/
def nbOfSlivers (o : NbOpts K) (slivers : List (Fl K)) (nLon : Nat) (radius j : Int) : Res (Fl K) := do
  let curr ← mapM (fun jj => vget slivers jj) (irange (max 0 (j - radius)) (min ((nLon : Int) - 1) (j + radius)))
  calculateStat curr o.stat o.quantile

/-- One row by way of the columns (src/client/Calibrator/Neighbourhood.cpp:191-237). -/
def nbFastRow (o : NbOpts K) (input : List (List (Fl K))) (nLat nLon : Nat) (radius i : Int) : Res (List (Fl K)) :=
  if i < radius ∨ i ≥ (nLat : Int) - radius then mapM (nbBoxStat o input nLat nLon radius i) (upto nLon)
  else do
    let slivers ← mapM (nbSliver o input radius i) (upto nLon)
    mapM (nbOfSlivers o slivers nLon radius) (upto nLon)

/-- `iOutput(i,j,e) = values[i][j]` (src/client/Calibrator/Neighbourhood.cpp:239-244, 277-282). -/
def nbWrite (values : List (List (Fl K))) (nLat nLon e : Nat) (f : FieldC K) : Res (FieldC K) :=
  FieldC.forCells nLat nLon (fun f i j => do
    let v ← vget2 values i j
    f.set i j e v) f

/-- `numMissingValues` (src/client/Calibrator/Neighbourhood.cpp:61-69). -/
def nbMissing (input : List (List (Fl K))) : Nat := (input.flatten.filter fun v => !isValid v).length

/-- Member `e` of a field (src/client/Calibrator/Neighbourhood.cpp:82-283). -/
def nbMember (o : NbOpts K) (radius : Int) (raw : FieldC K) (f : FieldC K) (e : Nat) : Res (FieldC K) := do
  let input ← grid2 raw.nY raw.nX fun y x => raw.get y.toNat x.toNat e
  if o.fast && (o.stat = .mean || o.stat = .sum) then do
    let table ← nbTable raw.nY raw.nX input
    FieldC.forCells raw.nY raw.nX (nbSumCell table raw.nY raw.nX radius o.stat e) f
  else if nbMissing input = 0 && ((o.fast && (o.stat = .min || o.stat = .max)) || (o.approx && (o.stat = .median || o.stat = .quantile))) then do
    let values ← mapM (nbFastRow o input raw.nY raw.nX radius) (upto raw.nY)
    nbWrite values raw.nY raw.nX e f
  else do
    let values ← grid2 raw.nY raw.nX (nbBoxStat o input raw.nY raw.nX radius)
    nbWrite values raw.nY raw.nX e f

/-- The radius (src/client/Calibrator/Neighbourhood.cpp:72-78): a parameter of type `float` is converted to `int`. -/
def nbRadius (o : NbOpts K) (pars : Option (List (Fl K))) : Res Int :=
  match pars with
  | none => ok o.radius
  | some p => do
    let r ← parAt p 0
    Fl.truncInt r

/-- `CalibratorNeighbourhood::calibrateField` (src/client/Calibrator/Neighbourhood.cpp:70-288); `raw` is a copy of the field. -/
def nbField (o : NbOpts K) (pars : Option (List (Fl K))) (raw : FieldC K) : Res (FieldC K) := do
  let radius ← nbRadius o pars
  foldM (fun f e => nbMember o radius raw f e) raw (List.range raw.nE)

/-- One time (src/client/Calibrator/Neighbourhood.cpp:46-57). The parameter file, if there is one, is given as whether it depends on the
location, and the parameters of each time. -/
def nbTime (o : NbOpts K) (par : Option (Bool × (Nat → List (Fl K)))) (t : Nat) (f : FieldC K) : Res (FieldC K) :=
  match par with
  | none => nbField o none f
  | some p => if p.1 then error else nbField o (some (p.2 t)) f

/-- `CalibratorNeighbourhood::calibrateCore` (src/client/Calibrator/Neighbourhood.cpp:41-60). -/
def neighbourhoodC (o : NbOpts K) (par : Option (Bool × (Nat → List (Fl K)))) (fields : List (FieldC K)) : Res (List (FieldC K)) :=
  eachTime (nbTime o par) fields

end Gridpp.Client
