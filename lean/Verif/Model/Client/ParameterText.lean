import Verif.Model.Client.ParameterFile
import Verif.Model.Client.Options

/-!
# src/client/ParameterFile/Text.cpp: parameters in a text file

A file is the list of its characters, without null characters. The floats are read exactly: rounding, overflow and underflow are left out.
An `int` that is too large cannot be read.
-/

set_option linter.unusedSectionVars false

namespace Gridpp.Client
open Fl Res

variable {K : Type} [Field K] [LinearOrder K]

/-! ### Reading numbers: `operator>>` of the C locale, after the white space -/

/-- A decimal digit. -/
def isDigit (c : Char) : Bool := decide (48 ≤ c.toNat) && decide (c.toNat ≤ 57)

/-- The number that the digits stand for. -/
def digitsVal (ds : Str) : Nat := ds.foldl (fun n c => 10 * n + (c.toNat - 48)) 0

/-- An optional sign: whether it is a minus, and what follows. -/
def takeSign : Str → Bool × Str
  | '-' :: t => (true, t)
  | '+' :: t => (false, t)
  | s => (false, s)

/-- `operator>>(int&)`: the number and the characters that are left; `none` if the stream fails. -/
def scanInt (s : Str) : Option (Int × Str) :=
  let t := takeSign s
  let ds := t.2.takeWhile isDigit
  let v : Int := if t.1 then -(digitsVal ds : Int) else digitsVal ds
  if ds = [] then none
  else if v < -2147483648 ∨ 2147483647 < v then none
  else some (v, t.2.dropWhile isDigit)

/-- The digits after a decimal point. -/
def takeFraction : Str → Str × Str
  | '.' :: t => (t.takeWhile isDigit, t.dropWhile isDigit)
  | s => ([], s)

/-- The exponent. A letter `e` without digits makes the stream fail. -/
def scanExponent : Str → Option (Int × Str)
  | [] => some (0, [])
  | c :: s =>
    if c = 'e' ∨ c = 'E' then
      let t := takeSign s
      let ds := t.2.takeWhile isDigit
      if ds = [] then none else some (if t.1 then -(digitsVal ds : Int) else digitsVal ds, t.2.dropWhile isDigit)
    else some (0, c :: s)

/-- `operator>>(float&)`. -/
def scanFloat (s : Str) : Option (K × Str) :=
  let t := takeSign s
  let whole := t.2.takeWhile isDigit
  let frac := takeFraction (t.2.dropWhile isDigit)
  if whole = [] ∧ frac.1 = [] then none
  else match scanExponent frac.2 with
    | none => none
    | some e => some ((if t.1 then -1 else 1) * (digitsVal (whole ++ frac.1) : K) * 10 ^ (e.1 - (frac.1.length : Int)), e.2)

/-- The white space before a word or number. -/
def skipSpace (s : Str) : Str := s.dropWhile isSpace

/-! ### The reader -/

/-- `columnNames` is only used for whether the header has been read; the positions are those of the last column with the name, `none` for
`Util::MV`. -/
structure Columns where
  time : Option Nat
  lat : Option Nat
  lon : Option Nat
  elev : Option Nat
  deriving DecidableEq

/-- One name of the header (src/client/ParameterFile/Text.cpp:43-50). -/
def Columns.add (c : Columns) (k : Nat) (name : Str) : Columns :=
  if name = "time".toList then { c with time := some k }
  else if name = "lat".toList then { c with lat := some k }
  else if name = "lon".toList then { c with lon := some k }
  else if name = "elev".toList then { c with elev := some k }
  else c

/-- The loop over the names (src/client/ParameterFile/Text.cpp:34-52). A stream is still `good` unless the last word ended at the end of the
line; the loop is entered even for an empty line. The first argument bounds the number of words; `ub` when it is used up. -/
def headerLoop : Nat → Str → Nat → Columns → Res Columns
  | 0, _, _, _ => ub
  | n + 1, s, k, c =>
    let t := skipSpace s
    if t = [] then error
    else
      let rest := t.dropWhile fun x => !isSpace x
      let c := c.add k (t.takeWhile fun x => !isSpace x)
      if rest = [] then ok c else headerLoop n rest (k + 1) c

/-- The header line (src/client/ParameterFile/Text.cpp:32-59). -/
def readHeader (line : Str) : Res Columns := do
  let c ← headerLoop (line.length + 1) line 0 ⟨none, none, none, none⟩
  let n := (if c.lat.isSome then 1 else 0) + (if c.lon.isSome then 1 else 0) + (if c.elev.isSome then 1 else 0)
  if 0 < n ∧ n < 3 then error else ok c

/-- The variables of one line (src/client/ParameterFile/Text.cpp:62-67). -/
structure TextRow (K : Type) where
  time : Int
  lat : K
  lon : K
  elev : K
  values : List (Fl K)

/-- One value (src/client/ParameterFile/Text.cpp:69-101): the row and the rest of the line. -/
def readCell (c : Columns) (k : Nat) (s : Str) (r : TextRow K) : Res (TextRow K × Str) :=
  if c.time = some k then
    match scanInt (skipSpace s) with
    | none => error
    | some v => ok ({ r with time := v.1 }, v.2)
  else
    match scanFloat (K := K) (skipSpace s) with
    | none => error
    | some v =>
      if c.lat = some k then ok ({ r with lat := v.1 }, v.2)
      else if c.lon = some k then ok ({ r with lon := v.1 }, v.2)
      else if c.elev = some k then ok ({ r with elev := v.1 }, v.2)
      else ok ({ r with values := r.values ++ [fin v.1] }, v.2)

/-- The loop over the values (src/client/ParameterFile/Text.cpp:68-102); see `headerLoop`. -/
def rowLoop (c : Columns) : Nat → Str → Nat → TextRow K → Res (TextRow K)
  | 0, _, _, _ => ub
  | n + 1, s, k, r => do
    let v ← readCell c k s r
    if v.2 = [] then ok v.1 else rowLoop c n v.2 (k + 1) v.1

/-- The place of a line (src/client/ParameterFile/Text.cpp:104-107). -/
def TextRow.place (r : TextRow K) : Loc K :=
  if isValid (fin r.lat) && isValid (fin r.lon) && isValid (fin r.elev) then ⟨r.lat, r.lon, fin r.elev⟩ else ParFile.nowhere

/-- `std::set::insert`; the set in increasing order. -/
def setInsert (t : Int) : List Int → List Int
  | [] => [t]
  | a :: l => if t < a then t :: a :: l else if t = a then a :: l else a :: setInsert t l

/-- The state of the loop over the lines (src/client/ParameterFile/Text.cpp:17-25). -/
structure TextState (K : Type) where
  columns : Option Columns
  numParameters : Option Nat
  counter : Nat
  times : List Int
  file : ParFile K

/-- A line with values (src/client/ParameterFile/Text.cpp:60-120). -/
def readRow (c : Columns) (line : Str) (s : TextState K) : Res (TextState K) := do
  let r ← rowLoop c (line.length + 1) line 0 ⟨0, -999, -999, -999, []⟩
  match s.numParameters with
  | some n =>
    if r.values.length ≠ n then error
    else do
      let f ← s.file.setParameters r.values r.time r.place
      ok { s with counter := s.counter + 1, times := setInsert r.time s.times, file := f }
  | none => do
    let f ← s.file.setParameters r.values r.time r.place
    ok { s with numParameters := some r.values.length, counter := s.counter + 1, times := setInsert r.time s.times, file := f }

/-- One line (src/client/ParameterFile/Text.cpp:29-121). -/
def textLine (s : TextState K) (line : Str) : Res (TextState K) :=
  if line.head? = some '#' then ok s
  else match s.columns with
    | none => do
      let c ← readHeader line
      ok { s with columns := some c }
    | some c => readRow c line s

/-- The lines that `getline(line, 10000, '\n')` reads with success (src/client/ParameterFile/Text.cpp:26-29): one that is not ended by a
line break or has more than 9999 characters makes the stream fail, which ends the loop. -/
def textLines (s : Str) : List Str := go [] s
where
  /-- `acc` is the line so far. -/
  go : Str → Str → List Str
    | _, [] => []
    | acc, c :: t => if c = '\n' then (if acc.length ≤ 9999 then acc :: go [] t else []) else go (acc ++ [c]) t

/-- A file read from text: the base class and `mTimes`. -/
structure ParText (K : Type) where
  file : ParFile K
  times : List Int

/-- The checks at the end (src/client/ParameterFile/Text.cpp:125-144). -/
def finishText (sort : Bool → List (Site K) → List (Site K)) (s : TextState K) : Res (ParText K) :=
  if s.counter = 0 then error
  else if 1 < s.counter ∧ (s.columns.bind Columns.time) = none ∧ (s.columns.bind Columns.lat) = none then error
  else do
    let f ← s.file.recomputeTree sort
    ok ⟨f, s.times⟩

/-- The constructor of `ParameterFileText` for a file that is there (src/client/ParameterFile/Text.cpp:10-145). A file that cannot be opened
leaves an empty object (lines 14-16). -/
def readText (sort : Bool → List (Site K) → List (Site K)) (cycling : Bool) (content : Option Str) : Res (ParText K) :=
  match content with
  | none => ok ⟨ParFile.empty cycling, []⟩
  | some s => do
    let st ← foldM textLine ⟨none, none, 0, [], ParFile.empty cycling⟩ (textLines s)
    finishText sort st

/-! ### The writer -/

/-- `ofs << n` for a number that is not negative; the first argument is at least the number of digits. -/
def showNat : Nat → Nat → Str
  | 0, _ => []
  | d + 1, n => (if n < 10 then [] else showNat d (n / 10)) ++ [Char.ofNat (48 + n % 10)]

/-- The lines of one place (src/client/ParameterFile/Text.cpp:193-207). `display` is `operator<<(float)`. -/
def writePlace (display : Fl K → Str) (dependent : Bool) (e : Loc K × List (Pars K)) : Str :=
  (List.range e.2.length).flatMap fun i =>
    let p := e.2.getD i []
    if p.length ≠ 0 then
      showNat (i + 1) i ++
        (if dependent then ' ' :: display (fin e.1.lat) ++ ' ' :: display (fin e.1.lon) ++ ' ' :: display e.1.elev else []) ++
        p.flatMap (fun v => ' ' :: display v) ++ ['\n']
    else []

/-- `ParameterFileText::write` (src/client/ParameterFile/Text.cpp:174-210): what is in the file afterwards. -/
def writeText (display : Fl K → Str) (f : ParFile K) : Res Str := do
  let dependent ← f.isLocationDependent
  let n := f.getNumParameters
  ok ((if dependent then "time lat lon elev\n".toList else "time\n".toList) ++
    (List.range n.toNat).flatMap (fun i => " param".toList ++ showNat (i + 1) i) ++
    f.pars.flatMap (writePlace display dependent))

end Gridpp.Client
