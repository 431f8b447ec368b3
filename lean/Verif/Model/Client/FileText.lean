import Verif.Model.Client.ParameterText
import Verif.Model.Client.Grid

/-!
# src/client/File/Text.cpp: forecasts in a text file

As in `Model/Client/ParameterText.lean` a file is the list of its characters, without null characters, and floats are read exactly.
-/

set_option linter.unusedSectionVars false

namespace Gridpp.Client
open Fl Res

variable {K : Type} [Field K] [LinearOrder K] [FloorRing K]

/-! ### The reader -/

/-- Class `Location` (src/client/Location.h), with what is read from a file. -/
structure Place3 (K : Type) where
  lat : K
  lon : K
  elev : K
  deriving DecidableEq

/-- `Location::operator<` (src/client/Location.cpp:10-22). -/
def Place3.before (a b : Place3 K) : Bool :=
  if a.lat = b.lat then
    if a.lon = b.lon then decide (a.elev < b.elev) else decide (a.lon < b.lon)
  else decide (a.lat < b.lat)

/-- `std::set<Location>::insert`; the set in increasing order. -/
def placeInsert (p : Place3 K) : List (Place3 K) → List (Place3 K)
  | [] => [p]
  | a :: l => if p.before a then p :: a :: l else if a.before p then a :: placeInsert p l else a :: l

/-- The values of a line (src/client/File/Text.cpp:54-61): while something is left of the line a value has to follow. The first argument
bounds the number of values; `ub` when it is used up. -/
def readMembers : Nat → Str → Res (List (Fl K))
  | 0, _ => ub
  | n + 1, s =>
    if s = [] then ok []
    else match scanFloat (K := K) (skipSpace s) with
      | none => error
      | some v => do
        let l ← readMembers n v.2
        ok (fin v.1 :: l)

/-- One line (src/client/File/Text.cpp:24-61). -/
def readReport (line : Str) : Res (TextRow K) :=
  match scanInt (skipSpace line) with
  | none => error
  | some t =>
    match scanFloat (K := K) (skipSpace t.2) with
    | none => error
    | some a =>
      match scanFloat (K := K) (skipSpace a.2) with
      | none => error
      | some b =>
        match scanFloat (K := K) (skipSpace b.2) with
        | none => error
        | some h => do
          let vs ← readMembers (line.length + 1) h.2
          ok ⟨t.1, a.1, b.1, h.1, vs⟩

/-- The state of the loop over the lines (src/client/File/Text.cpp:16-19): `mNEns` (`none` for `Util::MV`), the sets of times and places and
the map of maps `values`, as the list of what was put into it, the latest first. -/
structure ReportState (K : Type) where
  nEns : Option Nat
  times : List Int
  places : List (Place3 K)
  values : List ((Int × Place3 K) × List (Fl K))

/-- The rest of the loop for one line (src/client/File/Text.cpp:32, 62-71). -/
def addReport (s : ReportState K) (r : TextRow K) : Res (ReportState K) :=
  if s.nEns = none ∨ s.nEns = some r.values.length then
    ok ⟨some r.values.length, setInsert r.time s.times, placeInsert ⟨r.lat, r.lon, r.elev⟩ s.places,
      ((r.time, ⟨r.lat, r.lon, r.elev⟩), r.values) :: s.values⟩
  else error

/-- One line of the file (src/client/File/Text.cpp:23-72). -/
def reportLine (s : ReportState K) (line : Str) : Res (ReportState K) :=
  if line.head? = some '#' then ok s
  else do
    let r ← readReport line
    addReport s r

/-- `values.find(t)->second.find(p)`. -/
def findReport (l : List ((Int × Place3 K) × List (Fl K))) (t : Int) (p : Place3 K) : Option (List (Fl K)) :=
  (l.find? fun e => e.1 = (t, p)).map Prod.snd

/-- `File::setElevs` (src/client/File/File.cpp:282-288); `none` if the function returns false. -/
def setElevs (lats elevs : List (List (Fl K))) : Res (Option (List (List (Fl K)))) :=
  if elevs.length ≠ lats.length then ok none
  else do
    let r ← vget elevs 0
    let n ← numX lats
    ok (if r.length ≠ n then none else some elevs)

/-- A file read from text: the grid, the elevations, the times, the number of members and `mLocalFields`. -/
structure TextForecast (K : Type) where
  grid : GridFile K
  elevs : List (List (Fl K))
  times : List Int
  nEns : Int
  fields : List (FieldC K)
  deriving DecidableEq

/-- The values of one place (src/client/File/Text.cpp:117-119). -/
def putReport (n : Int) (f : FieldC K) (i : Nat) (v : List (Fl K)) : Res (FieldC K) :=
  foldM (fun f (e : Nat) => do
    let x ← vget v e
    f.set i 0 e x) f (List.range n.toNat)

/-- The field for one time (src/client/File/Text.cpp:112-122). -/
def reportField (lats : List (List (Fl K))) (n : Int) (s : ReportState K) (t : Int) : Res (FieldC K) := do
  let x ← numX lats
  let f ← FieldC.new (lats.length : Int) (x : Int) n MV
  foldM (fun f (i : Nat) => do
    let p ← vget s.places i
    match findReport s.values t p with
    | none => ok f
    | some v => putReport n f i v) f (List.range s.places.length)

/-- What is done after reading (src/client/File/Text.cpp:76-124). `g` and `next` are the tag of the new file and `mNextTag`. The result of
`setElevs` is not looked at (line 105): without it there are no elevations. -/
def finishReports (g : GridFile K) (next : Nat) (s : ReportState K) : Res (TextForecast K) := do
  let lats ← setLats g next (s.places.map fun p => [fin p.lat])
  match lats with
  | none => error
  | some (g1, n1) => do
    let lons ← setLons g1 n1 (s.places.map fun p => [fin p.lon])
    match lons with
    | none => error
    | some (g2, _) => do
      let el ← setElevs g2.lats (s.places.map fun p => [fin p.elev])
      let nE : Int := match s.nEns with
        | none => -999
        | some n => n
      let fields ← mapM (reportField g2.lats nE s) s.times
      ok ⟨g2, el.getD [], s.times, nE, fields⟩

/-- The constructor of `FileText` for a file that is there (src/client/File/Text.cpp:9-125). -/
def readForecast (tag next : Nat) (content : Str) : Res (TextForecast K) := do
  let s ← foldM reportLine ⟨none, [], [], []⟩ (textLines content)
  finishReports ⟨[], [], tag⟩ next s

/-- `FileText::getFieldCore` (src/client/File/Text.cpp:127-129); the variable is not looked at. -/
def TextForecast.getFieldCore (f : TextForecast K) (t : Int) : Res (FieldC K) := vget f.fields t

/-! ### The writer -/

/-- `ofs << n` for a `long`. -/
def showInt (n : Int) : Str := if n < 0 then '-' :: showNat (n.natAbs + 1) n.natAbs else showNat (n.toNat + 1) n.toNat

/-- The values of the first grid point (src/client/File/Text.cpp:143-145). `display` is `operator<<(float)` with `std::fixed` and two
decimals. -/
def showMembers (display : Fl K → Str) (n : Nat) (f : FieldC K) : Res Str := do
  let vs ← mapM (fun e : Nat => f.get 0 0 e) (List.range n)
  ok (vs.flatMap fun v => ' ' :: display v)

/-- What is written for one time (src/client/File/Text.cpp:139-147); `fs` are the fields of the variable, `none` for a null pointer. -/
def forecastLine (display : Fl K → Str) (times : List (Fl K)) (n : Nat) (fs : List (Option (FieldC K))) (i : Nat) : Res Str := do
  let f ← vget fs i
  match f with
  | none => ok []
  | some f => do
    let x ← vget times i
    let t ← Fl.truncInt x
    let vs ← showMembers display n f
    ok (showInt t ++ vs ++ ['\n'])

/-- `FileText::writeCore` (src/client/File/Text.cpp:131-150) and `FilePoint::writeCore` (src/client/File/Point.cpp:134-153, the same text):
what is in the file afterwards. `times` are the times of the file, `n` its number of members; `fields` for each variable are the fields for
the times, as `getField` gives them. -/
def writeForecast (display : Fl K → Str) (times : List (Fl K)) (n : Nat) (fields : List (List (Option (FieldC K)))) : Res Str :=
  match fields with
  | [] => ok []
  | fs :: _ => do
    let ls ← mapM (forecastLine display times n fs) (List.range times.length)
    ok (ls.flatMap id)

end Gridpp.Client
