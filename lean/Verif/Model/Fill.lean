import Verif.Model.Nearest

/-! # src/api/fill.cpp and doping.cpp -/

set_option linter.unusedSectionVars false

namespace Gridpp
open Fl Res

/-- `v[i] = a` for a `std::vector`: undefined behaviour outside the vector. -/
def vset {α : Type} (v : List α) (i : Int) (a : α) : Res (List α) :=
  if i < 0 then ub
  else if i.toNat < v.length then ok (v.set i.toNat a)
  else ub

/-- `v[i][j] = a`. -/
def vset2 {α : Type} (v : List (List α)) (i j : Int) (a : α) : Res (List (List α)) := do
  let r ← vget v i
  let r' ← vset r j a
  vset v i r'

section
variable {K : Type} [Field K] [LinearOrder K]

/-- The search for the next valid value on a line (fill.cpp:57-63 and 92-98): first position from `x` on with a valid
value, or the end of the line. `fuel` is the number of positions left. -/
def fillNext (get : Int → Res (Fl K)) : Nat → Int → Res Int
  | 0, x => ok x
  | fuel + 1, x => do
    let v ← get x
    if v.isValid then ok x else fillNext get fuel (x + 1)

/-- `next` is only searched for again when it has been passed (fill.cpp:57 and 92). -/
def fillFind (get : Int → Res (Fl K)) (n : Nat) (next x : Int) : Res Int :=
  if next < x then fillNext get (n - x.toNat) x else ok next

/-- The variables of the loop over a line: `last`, `next` and the results so far. -/
structure FillState (K : Type) where
  last : Int
  next : Int
  out : List (Fl K)

/-- The value written for a missing value, given `next` (fill.cpp:64-70 and 99-105). -/
def fillGap (get : Int → Res (Fl K)) (n : Nat) (last next x : Int) : Res (Fl K) :=
  if (n : Int) ≤ next then ok MV
  else do
    let valueLast ← get last
    let valueNext ← get next
    ok (valueLast + (valueNext - valueLast) * Fl.ofInt (x - last) / Fl.ofInt (next - last))

/-- One iteration of the loop over a line of `n` values (fill.cpp:53-77 and 88-112). -/
def fillStep (get : Int → Res (Fl K)) (n : Nat) (s : FillState K) (x : Int) : Res (FillState K) := do
  let curr ← get x
  if !curr.isValid then do
    let next ← fillFind get n s.next x
    let r ← fillGap get n s.last next x
    ok { s with next, out := s.out ++ [r] }
  else ok { s with last := x, out := s.out ++ [curr] }

/-- One line (row or column) of `fill_missing`. -/
def fillLine (get : Int → Res (Fl K)) (n : Nat) : Res (List (Fl K)) := do
  let s ← foldM (fillStep get n) ⟨0, -1, []⟩ (upto n)
  ok s.out

/-- Mean of the valid values among the row and the column result (fill.cpp:118-129). -/
def fillCombine (a b : Fl K) : Fl K :=
  let t1 := if a.isValid then (0 + a, 1) else ((0 : Fl K), 0)
  let t2 := if b.isValid then (t1.1 + b, t1.2 + 1) else t1
  if 0 < t2.2 then t2.1 / Fl.ofNat t2.2 else MV

/-- `gridpp::fill_missing` (fill.cpp:43-134). The counters `count_y`, `count_x` are left out (they are not used). -/
def fillMissing (values : List (List (Fl K))) : Res (List (List (Fl K))) := do
  let row0 ← vget values 0
  let Y := values.length
  let X := row0.length
  let ry ← mapM (fun y => fillLine (fun x => vget2 values y x) X) (upto Y)
  let rx ← mapM (fun x => fillLine (fun y => vget2 values y x) Y) (upto X)
  grid2 Y X fun y x => do
    let a ← vget2 ry y x
    let b ← vget2 rx x y
    ok (fillCombine a b)

variable [IsStrictOrderedRing K] [HasGeo K] [HasSqrt K]

/-- A loop over cells that writes `f y x` to the cell unless that is `none` (`continue`). -/
def paint (f : Int → Int → Res (Option (Fl K))) (output : List (List (Fl K))) (cells : List (Int × Int)) : Res (List (List (Fl K))) :=
  foldM (fun output c => do
    let v ← f c.1 c.2
    match v with
    | none => ok output
    | some v => vset2 output c.1 c.2 v) output cells

/-- The cells of a list of index pairs as used for indexing. -/
def intCells (I : List (Nat × Nat)) : List (Int × Int) := I.map fun c => ((c.1 : Int), (c.2 : Int))

/-- The value written by `fill` (fill.cpp:33-36). -/
def fillValue (input : List (List (Fl K))) (value : Fl K) (outside : Bool) (y x : Int) : Res (Option (Fl K)) :=
  if outside then do
    let v ← vget2 input y x
    ok (some v)
  else ok (some value)

/-- One iteration of the loop over the points of `fill` (fill.cpp:29-38). -/
def fillPoint (T : RTree K) (igrid : Grid K) (input : List (List (Fl K))) (points : Points K) (radii : List (Fl K)) (value : Fl K)
    (outside : Bool) (output : List (List (Fl K))) (i : Int) : Res (List (List (Fl K))) := do
  let la ← vget points.lats i
  let lo ← vget points.lons i
  let r ← vget radii i
  let I ← igrid.getNeighbours T la lo r true
  paint (fillValue input value outside) output (intCells I)

/-- `gridpp::fill` (fill.cpp:6-41). -/
def fill (T : RTree K) (igrid : Grid K) (input : List (List (Fl K))) (points : Points K) (radii : List (Fl K)) (value : Fl K)
    (outside : Bool) : Res (List (List (Fl K))) := do
  let c ← compatibleSizeG2 igrid input
  if c = false then throw .invalidArgument
  else if points.size ≠ radii.length then throw .invalidArgument
  else if radii.any (fun r => r.lt 0) then throw .invalidArgument
  else do
    let output := if outside then input.map fun r => List.replicate r.length value else input
    foldM (fillPoint T igrid input points radii value outside) output (upto points.size)

/-- The value written by the doping functions (doping.cpp:37-42 and 81-87): nothing if the elevation difference is too
large. A comparison with a missing elevation is false, so the observation is used. -/
def dopeValue (ielevs : List (List (Fl K))) (elevs : List (Fl K)) (maxElevDiff curr : Fl K) (i yy xx : Int) : Res (Option (Fl K)) :=
  if maxElevDiff.isValid then do
    let e ← vget elevs i
    let ie ← vget2 ielevs yy xx
    ok (if (e - ie).abs.gt maxElevDiff then none else some curr)
  else ok (some curr)

/-- The cells visited for one observation by `doping_square` (doping.cpp:35-36), in order. -/
def squareCells (Y X : Int) (index : Nat × Nat) (hw : Int) : List (Int × Int) :=
  (irange (max 0 (index.1 - hw)) (min (Y - 1) (index.1 + hw))).flatMap fun yy =>
    (irange (max 0 (index.2 - hw)) (min (X - 1) (index.2 + hw))).map fun xx => (yy, xx)

/-- One iteration of the loop over the observations of `doping_square` (doping.cpp:32-45). -/
def dopeSquarePoint (T : RTree K) (igrid : Grid K) (s : Nat × Nat) (points : Points K) (obs : List (Fl K))
    (halfwidth : List Int) (maxElevDiff : Fl K) (output : List (List (Fl K))) (i : Int) : Res (List (List (Fl K))) := do
  let la ← vget points.lats i
  let lo ← vget points.lons i
  let index ← nearestCell T igrid la lo
  let curr ← vget obs i
  let hw ← vget halfwidth i
  paint (dopeValue igrid.elevs points.elevs maxElevDiff curr i) output (squareCells s.1 s.2 index hw)

/-- `gridpp::doping_square` (doping.cpp:5-48). -/
def dopingSquare (T : RTree K) (igrid : Grid K) (background : List (List (Fl K))) (points : Points K) (obs : List (Fl K))
    (halfwidth : List Int) (maxElevDiff : Fl K) : Res (List (List (Fl K))) := do
  let c ← compatibleSizeG2 igrid background
  if c = false then throw .invalidArgument
  else if points.size ≠ obs.length then throw .invalidArgument
  else if points.size ≠ halfwidth.length then throw .invalidArgument
  else if maxElevDiff.isValid && maxElevDiff.lt 0 then throw .invalidArgument
  else do
    let s ← igrid.size
    if halfwidth.any (fun h => decide (h < 0)) then throw .invalidArgument
    else foldM (dopeSquarePoint T igrid s points obs halfwidth maxElevDiff) background (upto points.size)

/-- One iteration of the loop over the observations of `doping_circle` (doping.cpp:77-90). -/
def dopeCirclePoint (T : RTree K) (igrid : Grid K) (points : Points K) (obs radii : List (Fl K)) (maxElevDiff : Fl K)
    (output : List (List (Fl K))) (i : Int) : Res (List (List (Fl K))) := do
  let la ← vget points.lats i
  let lo ← vget points.lons i
  let r ← vget radii i
  let I ← igrid.getNeighbours T la lo r true
  let curr ← vget obs i
  paint (dopeValue igrid.elevs points.elevs maxElevDiff curr i) output (intCells I)

/-- `gridpp::doping_circle` (doping.cpp:50-93). -/
def dopingCircle (T : RTree K) (igrid : Grid K) (background : List (List (Fl K))) (points : Points K) (obs : List (Fl K))
    (radii : List (Fl K)) (maxElevDiff : Fl K) : Res (List (List (Fl K))) := do
  let c ← compatibleSizeG2 igrid background
  if c = false then throw .invalidArgument
  else if points.size ≠ obs.length then throw .invalidArgument
  else if points.size ≠ radii.length then throw .invalidArgument
  else if maxElevDiff.isValid && maxElevDiff.lt 0 then throw .invalidArgument
  else if radii.any (fun h => h.lt 0) then throw .invalidArgument
  else foldM (dopeCirclePoint T igrid points obs radii maxElevDiff) background (upto points.size)

end
end Gridpp
