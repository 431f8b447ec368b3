import Verif.Base.Res

/-! # src/client/Util.cpp: split; src/client/Options.cpp: class Options

A `std::string` is a list of characters; `std::string::npos` is `none`. -/

namespace Gridpp.Client
open Res

/-- `std::string`. -/
abbrev Str := List Char

/-- `std::string::find_first_not_of(delims, pos)`, used at src/client/Util.cpp:243 and :253. -/
def findFirstNotOf (s delims : Str) : Option Nat → Option Nat
  | none => none
  | some p => ((s.drop p).findIdx? (fun c => !delims.contains c)).map (· + p)

/-- `std::string::find_first_of(delims, pos)`, used at src/client/Util.cpp:246 and :256. -/
def findFirstOf (s delims : Str) : Option Nat → Option Nat
  | none => none
  | some p => ((s.drop p).findIdx? (fun c => delims.contains c)).map (· + p)

/-- `iString.substr(lastPos, pos - lastPos)` (src/client/Util.cpp:250): `std::out_of_range` for a start after the end; an
unsigned difference below zero is a huge length. -/
def substr (s : Str) (lastPos pos : Option Nat) : Res Str :=
  match lastPos with
  | none => throw .logicError
  | some l =>
    if s.length < l then throw .logicError
    else match pos with
      | none => ok (s.drop l)
      | some p => if p < l then ok (s.drop l) else ok ((s.drop l).take (p - l))

/-- The loop of `Util::split` (src/client/Util.cpp:248-257). The first argument bounds the number of iterations; `ub` when it is
used up stands for a loop that never ends. -/
def splitLoop (s delims : Str) : Nat → Option Nat → Option Nat → Res (List Str)
  | 0, _, _ => ub
  | n + 1, lastPos, pos =>
    if pos.isSome || lastPos.isSome then do
      let word ← substr s lastPos pos
      let next := findFirstNotOf s delims pos
      let rest ← splitLoop s delims n next (findFirstOf s delims next)
      ok (word :: rest)
    else ok []

/-- `Util::split` (src/client/Util.cpp:239-260). -/
def split (s delims : Str) : Res (List Str) :=
  let lastPos := findFirstNotOf s delims (some 0)
  splitLoop s delims (s.length + 1) lastPos (findFirstOf s delims lastPos)

/-- Class `Options` (src/client/Options.h:128-129): the pairs, and the keys that have been read (a set, here a list of its
elements). -/
structure Options where
  pairs : List (Str × Str)
  accessed : List Str
  deriving DecidableEq, Repr

/-- The loop of `addOption` that overwrites the first pair with the key (src/client/Options.cpp:12-18); `none` if there is none. -/
def overwrite (key value : Str) : List (Str × Str) → Option (List (Str × Str))
  | [] => none
  | p :: t => if p.1 = key then some ((p.1, value) :: t) else (overwrite key value t).map (p :: ·)

/-- `Options::addOption(iKey, iValue)` (src/client/Options.cpp:7-20). -/
def addOption (o : Options) (key value : Str) : Options :=
  if key = [] ∨ value = [] then o
  else match overwrite key value o.pairs with
    | some ps => { o with pairs := ps }
    | none => { o with pairs := o.pairs ++ [(key, value)] }

/-- `Options::addOption(iOptionString)` (src/client/Options.cpp:46-58). -/
def addOptionString (o : Options) (s : Str) : Options :=
  match s.findIdx? (· == '=') with
  | none => addOption o s ['1']
  | some n => addOption o (s.take n) (s.drop (n + 1))

/-- `Options::addOptions` (src/client/Options.cpp:22-27). The default of `iDelims` is one space (Util.h:111). -/
def addOptions (o : Options) (s : Str) : Res Options := do
  let options ← split s [' ']
  ok (options.foldl addOptionString o)

/-- `Options::Options()` (src/client/Options.cpp:4-6). -/
def Options.empty : Options := ⟨[], []⟩

/-- `Options::Options(iOptionString)` (src/client/Options.cpp:42-44). -/
def newOptions (s : Str) : Res Options := addOptions Options.empty s

/-- `Options::clear` (src/client/Options.cpp:28-30): the set of keys that have been read is kept. -/
def clearOptions (o : Options) : Options := { o with pairs := [] }

/-- `Options::toString` (src/client/Options.cpp:32-40). -/
def optionsToString (o : Options) : Str :=
  match o.pairs with
  | [] => []
  | p :: t => p.1 ++ '=' :: p.2 ++ t.flatMap (fun q => ' ' :: (q.1 ++ '=' :: q.2))

/-- `isspace` of the C locale, the characters skipped and stopped at by `operator>>`. -/
def isSpace (c : Char) : Bool := c = ' ' || (9 ≤ c.toNat && c.toNat ≤ 13)

/-- `ss >> iValue` with a `std::string` (src/client/Options.h:54-55 and :94-96): skips white space, then reads up to white space;
nothing to read leaves the variable as it is. -/
def readWord (s old : Str) : Str :=
  let t := s.dropWhile isSpace
  if t = [] then old else t.takeWhile (fun c => !isSpace c)

/-- `Options::getValue` for `T = std::string` (src/client/Options.h:49-61): the object after the call (`mHasBeenAccessed` is
mutable), the returned flag and `iValue`. -/
def getValue (o : Options) (key old : Str) : Options × Bool × Str :=
  match o.pairs.find? (fun p => p.1 = key) with
  | some p => ({ o with accessed := key :: o.accessed }, true, readWord p.2 old)
  | none => (o, false, old)

/-- `Options::getRequiredValue` (src/client/Options.h:66-73): `Util::error` ends the program. -/
def getRequiredValue (o : Options) (key old : Str) : Res (Options × Str) :=
  let r := getValue o key old
  if r.2.1 then ok (r.1, r.2.2) else abort

/-- The loop over `getline(ss, betweenComma, ',')` (src/client/Options.h:90-98). An empty part is read when it ends in a comma;
at the end of the string nothing is read. -/
def commaParts : Str → Str → List Str
  | acc, [] => if acc = [] then [] else [acc]
  | acc, c :: t => if c = ',' then acc :: commaParts [] t else commaParts (acc ++ [c]) t

/-- `Options::getValues` for `T = std::string` (src/client/Options.h:80-104). -/
def getValues (o : Options) (key : Str) : Options × Bool × List Str :=
  match o.pairs.find? (fun p => p.1 = key) with
  | some p => ({ o with accessed := key :: o.accessed }, true, (commaParts [] p.2).map (fun w => readWord w []))
  | none => (o, false, [])

/-- `Options::hasValue` (src/client/Options.cpp:59-65). -/
def hasValue (o : Options) (key : Str) : Bool := o.pairs.any (fun p => p.1 = key)

/-- `Options::check` (src/client/Options.cpp:67-91), without the text of the warning. -/
def checkOptions (o : Options) : Bool :=
  (o.pairs.filter (fun p => !o.accessed.contains p.1)).length = 0

/-- One of the two loops of `Options::operator==` (src/client/Options.cpp:93-102 and :103-112): the pairs of one object are looked
up in the other object, which is returned as it is after the reads. -/
def sameLoop : List (Str × Str) → Options → Bool × Options
  | [], right => (true, right)
  | p :: t, right =>
    if !hasValue right p.1 then (false, right)
    else
      let r := getValue right p.1 []
      if p.2 ≠ r.2.2 then (false, r.1) else sameLoop t r.1

/-- `Options::operator==` (src/client/Options.cpp:92-114), with both objects after the comparison. -/
def sameOptions (left right : Options) : Bool × Options × Options :=
  let a := sameLoop left.pairs right
  if a.1 then
    let b := sameLoop right.pairs left
    (b.1, b.2, a.2)
  else (false, left, a.2)

end Gridpp.Client
