import Verif.Model.Client.FileText
import Verif.Model.Client.Dates

/-!
# src/client/File/NorcomQnh.cpp: messages with the lowest pressure

`int` and `time_t` are not bounded. The time at which the program runs is a parameter.
-/

set_option linter.unusedSectionVars false

namespace Gridpp.Client
open Fl Res

variable {K : Type} [Field K] [LinearOrder K] [FloorRing K]

/-- The options, as `Options::getValue` and `Options::getValues` give them. -/
structure NorcomOptions (K : Type) where
  lats : Option (List (Fl K))
  lons : Option (List (Fl K))
  elevs : Option (List (Fl K))
  names : Option (List Str)
  numTimes : Option Int
  startTime : Option Int
  endTime : Option Int

/-- An object of class `FileNorcomQnh`; `mNEns` is one. -/
structure NorcomFile (K : Type) where
  grid : GridFile K
  elevs : List (List (Fl K))
  names : List Str
  times : List Int
  startTime : Int
  endTime : Int
  deriving DecidableEq

/-- `startTime` and `endTime` (src/client/File/NorcomQnh.cpp:60-73). -/
def norcomTimes (o : NorcomOptions K) : Res (Int × Int) :=
  match o.startTime, o.endTime with
  | some a, some b => if b < a then error else ok (a, b)
  | _, _ => error

/-- The constructor (src/client/File/NorcomQnh.cpp:9-75). `g` and `next` are the tag of the new file and `mNextTag`. -/
def newNorcom (g : GridFile K) (next : Nat) (o : NorcomOptions K) : Res (NorcomFile K) :=
  match o.lats, o.lons, o.elevs, o.names, o.numTimes with
  | some lats, some lons, some elevs, some names, some n =>
    if lats.length ≠ lons.length ∨ lats.length ≠ elevs.length ∨ lats.length ≠ names.length then error
    else if lats.any fun lat => lat.lt (fin (-90)) || lat.gt (fin 90) then error
    else do
      let la ← setLats g next [lats]
      match la with
      | none => error
      | some (g1, n1) => do
        let lo ← setLons g1 n1 [lons]
        match lo with
        | none => error
        | some (g2, _) => do
          let el ← setElevs g2.lats [elevs]
          let se ← norcomTimes o
          ok ⟨g2, el.getD [], names, upto n.toNat, se.1, se.2⟩
  | _, _, _, _, _ => error

/-- `std::setfill(c) << std::setw(w) << std::right`. -/
def padLeft (c : Char) (w : Nat) (s : Str) : Str := List.replicate (w - s.length) c ++ s

/-- `std::setfill(c) << std::setw(w) << std::left`. -/
def padRight (c : Char) (w : Nat) (s : Str) : Str := s ++ List.replicate (w - s.length) c

/-- `FileNorcomQnh::getNorcomTimeStamp` (src/client/File/NorcomQnh.cpp:138-148). -/
def norcomStamp (t : Int) : Res Str := do
  let date ← getDate t
  let day := date.tmod 100
  let hhmm := (getTime t).tdiv 100
  ok (padLeft '0' 2 (showInt day) ++ padLeft '0' 4 (showInt hhmm))

/-- The lowest value at station `j` (src/client/File/NorcomQnh.cpp:121-127); `fs` are the fields of the variable, as `getField` gives them,
`none` for a null pointer. Other indices than those of the fields end the program before: they are indices of the times, too. -/
def norcomMin (fs : List (Option (FieldC K))) (j : Nat) (ts : List Int) : Res Int :=
  foldM (fun pa t => do
    let f ← vget fs t
    match f with
    | none => ub
    | some f => do
      let v ← f.get 0 j 0
      let curr ← Fl.truncInt v
      ok (if pa = -999 ∨ (curr ≠ -999 ∧ curr < pa) then curr else pa)) (-999) ts

/-- The line of a station (src/client/File/NorcomQnh.cpp:115-133). -/
def norcomLine (names : List Str) (width : Nat) (fs : List (Option (FieldC K))) (ts : List Int) (j : Nat) : Res Str := do
  let name ← vget names j
  let pa ← norcomMin fs j ts
  if pa = -999 then error
  else ok ("EST MIN QNH ".toList ++ padRight ' ' width name ++ ": ".toList ++ padLeft '0' 4 (showInt (pa.tdiv 100)) ++ " HPA\r\n".toList)

/-- `FileNorcomQnh::writeCore` (src/client/File/NorcomQnh.cpp:85-136): what is in the file afterwards. `now` is the current time, `times` are
the times of the file, `X` its number of stations, `names` their names; `fields` for each variable are the fields for the times. -/
def writeNorcom (now : Int) (times : List (Fl K)) (X : Nat) (names : List Str) (first last : Int) (fields : List (List (Option (FieldC K)))) :
    Res Str :=
  match fields with
  | [] => ok []
  | fs :: _ => do
    let width := names.foldl (fun w n => if w < n.length then n.length else w) 0
    let s0 ← norcomStamp now
    let t1 ← vget times first
    let t1 ← Fl.truncInt t1
    let s1 ← norcomStamp t1
    let t2 ← vget times last
    let t2 ← Fl.truncInt t2
    let s2 ← norcomStamp t2
    let ls ← mapM (norcomLine names width fs ((upto (last - first + 1).toNat).map fun k => first + k)) (List.range X)
    ok ("FBNO52 ENNC ".toList ++ s0 ++ "\r\r\n".toList ++ "VALID ".toList ++ s1 ++ " - ".toList ++ s2 ++ " UTC.\r\n".toList ++ ls.flatMap id)

end Gridpp.Client
