import Verif.Model.Client.FileText

/-!
# src/client/File/Point.cpp: forecasts for one place in a text file

As in `Model/Client/FileText.lean` a file is the list of its characters, without null characters, and numbers are read exactly. `none` is a
file that cannot be opened. The writer is `writeForecast`.
-/

set_option linter.unusedSectionVars false

namespace Gridpp.Client
open Fl Res

variable {K : Type} [Field K] [LinearOrder K] [FloorRing K]

/-- The options, as `Options::getValue` gives them. -/
structure PointOptions (K : Type) where
  lat : Option (Fl K)
  lon : Option (Fl K)
  elev : Option (Fl K)
  ens : Option Int
  time : Option Int

/-- `while(ss >> value)` (src/client/File/Point.cpp:65-67 and 111-119): the values up to the first that cannot be read. The first argument
bounds their number; `ub` when it is used up. -/
def scanValues : Nat → Str → Res (List (Fl K))
  | 0, _ => ub
  | n + 1, s =>
    match scanFloat (K := K) (skipSpace s) with
    | none => ok []
    | some v => do
      let l ← scanValues n v.2
      ok (fin v.1 :: l)

/-- The time and the values of a line (src/client/File/Point.cpp:59-67 and 104-119). A time that cannot be read is zero, and then nothing else
can be read; if there is nothing but white space the time is a variable without a value. -/
def pointRow (line : Str) : Res (K × List (Fl K)) :=
  if skipSpace line = [] then ub
  else match scanFloat (K := K) (skipSpace line) with
  | none => ok (0, [])
  | some t => do
    let l ← scanValues (line.length + 1) t.2
    ok (t.1, l)

/-- The rows of the file (src/client/File/Point.cpp:53-70 and 96-128). -/
def pointRows (content : Option Str) : Res (List (K × List (Fl K))) :=
  match content with
  | none => ok []
  | some s => mapM pointRow ((textLines s).filter fun l => decide (l.head? ≠ some '#'))

/-- An object of class `FilePoint`. -/
structure PointFile (K : Type) where
  grid : GridFile K
  elevs : List (List (Fl K))
  nEns : Int
  times : List Int
  deriving DecidableEq

/-- `times` and the check of `numTimes` (src/client/File/Point.cpp:74-85): without the option a variable that has no value is looked at. -/
def pointTimes (o : PointOptions K) : Res (List Int) :=
  match o.time with
  | none => ub
  | some n => if n = -999 then error else ok (upto n.toNat)

/-- The constructor (src/client/File/Point.cpp:8-90). `g` and `next` are the tag of the new file and `mNextTag`. -/
def newPoint (g : GridFile K) (next : Nat) (o : PointOptions K) (content : Option Str) : Res (PointFile K) :=
  match o.lat, o.lon, o.elev with
  | some lat, some lon, some elev =>
    if lat.lt (fin (-90)) || lat.gt (fin 90) then error
    else do
      let lats ← setLats g next [[lat]]
      match lats with
      | none => error
      | some (g1, n1) => do
        let lons ← setLons g1 n1 [[lon]]
        match lons with
        | none => error
        | some (g2, _) => do
          let el ← setElevs g2.lats [[elev]]
          let rows ← pointRows (K := K) content
          let nEns : Int := match rows.getLast? with
            | none => -999
            | some r => r.2.length
          let nEns := o.ens.getD nEns
          let times ← pointTimes o
          if nEns = -999 then error else ok ⟨g2, el.getD [], nEns, times⟩
  | _, _, _ => error

/-- What is done with one row (src/client/File/Point.cpp:108-125): a value too many fails the check inside of the loop. -/
def pointPut (n t : Int) (f : FieldC K) (r : K × List (Fl K)) : Res (FieldC K) :=
  if r.1 = (t : K) then
    if n < r.2.length then error
    else do
      let f ← putReport (r.2.length : Int) f 0 r.2
      if (r.2.length : Int) ≠ n then error else ok f
  else ok f

/-- `FilePoint::getFieldCore` (src/client/File/Point.cpp:95-132). -/
def PointFile.getFieldCore (p : PointFile K) (content : Option Str) (t : Int) : Res (FieldC K) := do
  let x ← numX p.grid.lats
  let f ← FieldC.new (p.grid.lats.length : Int) (x : Int) p.nEns MV
  let rows ← pointRows (K := K) content
  foldM (pointPut p.nEns t) f rows

end Gridpp.Client
