import Verif.Model.Client.KDTree

/-! # src/client/ParameterFile/ParameterFile.cpp, src/client/Location.cpp: the parameters by place and time -/

set_option linter.unusedSectionVars false

namespace Gridpp.Client
open Fl Res

variable {K : Type} [Field K] [LinearOrder K]

/-- `Location` (src/client/Location.h:6-31). The coordinates are numbers here, -999 for a missing one: with NaN the ordering below is
not one that `std::map` may be used with, and infinite coordinates are left out. -/
structure Loc (K : Type) where
  lat : K
  lon : K
  elev : Fl K
  deriving DecidableEq

/-- `Location::CmpIgnoreElevation` (src/client/Location.cpp:46-53). -/
def Loc.before (a b : Loc K) : Bool := if b.lat = a.lat then decide (a.lon < b.lon) else decide (a.lat < b.lat)

/-- `Parameters` (src/client/Parameters.h): an array of values. -/
abbrev Pars (K : Type) := List (Fl K)

/-- The map `LocationParameters` (src/client/ParameterFile/ParameterFile.h:64) in the order of its keys. -/
abbrev ParMap (K : Type) := List (Loc K × List (Pars K))

namespace ParMap

/-- `std::map::find`: keys are the same if neither comes before the other. -/
def find (l : Loc K) : ParMap K → Option (Loc K × List (Pars K))
  | [] => none
  | e :: m => if !e.1.before l && !l.before e.1 then some e else find l m

/-- `map[l] = g(map[l])`: a key that is not there is inserted at its place with an empty array; one that is there stays as it is, so the
elevation of the first is kept. -/
def update (l : Loc K) (g : List (Pars K) → List (Pars K)) : ParMap K → ParMap K
  | [] => [(l, g [])]
  | e :: m => if l.before e.1 then (l, g []) :: e :: m else if e.1.before l then e :: update l g m else (e.1, g e.2) :: m

end ParMap

/-- `ParameterFile` (src/client/ParameterFile/ParameterFile.h:63-84): what the functions below use. -/
structure ParFile (K : Type) where
  pars : ParMap K
  timeDependent : Bool
  maxTime : Int
  cycling : Bool
  locations : List (Loc K)
  tree : KD K

namespace ParFile

/-- The constructor (src/client/ParameterFile/ParameterFile.cpp:9-19); `cycling` is the option `cycle`. -/
def empty (cycling : Bool) : ParFile K := ⟨[], false, 0, cycling, [], .nil⟩

/-- `vector::resize`: cut off or fill up with empty sets. -/
def resize (n : Nat) (v : List (Pars K)) : List (Pars K) := v.take n ++ List.replicate (n - v.length) []

/-- `ParameterFile::setParameters` with a location (src/client/ParameterFile/ParameterFile.cpp:191-199). A negative time makes an index
out of range. -/
def setParameters (f : ParFile K) (p : Pars K) (time : Int) (l : Loc K) : Res (ParFile K) :=
  if time < 0 then .ub
  else
    let maxTime := max f.maxTime time
    ok { f with
      pars := ParMap.update l (fun v => (if v.length ≤ time.toNat then resize (maxTime + 1).toNat v else v).set time.toNat p) f.pars
      maxTime := maxTime
      timeDependent := f.timeDependent || decide (0 < time) }

/-- `Location(Util::MV, Util::MV, Util::MV)` (src/client/ParameterFile/ParameterFile.cpp:201). -/
def nowhere : Loc K := ⟨-999, -999, MV⟩

/-- `ParameterFile::setParameters` without a location (src/client/ParameterFile/ParameterFile.cpp:200-202). -/
def setParametersAll (f : ParFile K) (p : Pars K) (time : Int) : Res (ParFile K) := setParameters f p time nowhere

/-- `ParameterFile::isLocationDependent` (src/client/ParameterFile/ParameterFile.cpp:223-231). The iterator `begin()` of an empty map
is dereferenced. -/
def isLocationDependent (f : ParFile K) : Res Bool :=
  match f.pars with
  | [] => .ub
  | [e] => ok (isValid (fin e.1.lat) && isValid (fin e.1.lon))
  | _ => ok true

/-- `ParameterFile::recomputeTree` (src/client/ParameterFile/ParameterFile.cpp:21-35). The locations are appended to those of earlier
calls. -/
def recomputeTree (sort : Bool → List (Site K) → List (Site K)) (f : ParFile K) : Res (ParFile K) := do
  let dependent ← f.isLocationDependent
  if dependent then do
    let tree ← KD.build sort (f.pars.map fun e => [fin e.1.lat]) (f.pars.map fun e => [fin e.1.lon])
    ok { f with locations := f.locations ++ f.pars.map Prod.fst, tree := tree }
  else ok f

/-- The time index that is used for time `time` (src/client/ParameterFile/ParameterFile.cpp:52-73 and 94-114). -/
def timeIndex (f : ParFile K) (time : Int) : Res Int :=
  if time < 0 then error
  else
    let t := if f.timeDependent then time else 0
    let t := if f.maxTime > 0 ∧ f.cycling = true ∧ t ≥ f.maxTime + 1 then t.tmod (f.maxTime + 1) else t
    if t > f.maxTime then error else ok t

/-- `timeParameters[time]`, or an empty set beyond the end (src/client/ParameterFile/ParameterFile.cpp:86-91 and 131-136); the time
is not negative. -/
def atTime (v : List (Pars K)) (t : Int) : Res (Pars K) :=
  if t < v.length then vget v t else ok []

/-- `ParameterFile::getParameters` without a location (src/client/ParameterFile/ParameterFile.cpp:51-92). -/
def getParametersAll (f : ParFile K) (time : Int) : Res (Pars K) := do
  let t ← f.timeIndex time
  let dependent ← f.isLocationDependent
  if dependent then error
  else match f.pars with
    | [e] => atTime e.2 t
    | _ => .ub

/-- `it->second.size() > iTime && it->second[iTime].size() != 0` (src/client/ParameterFile/ParameterFile.cpp:155, 162 and 170). The
comparison is one of unsigned numbers, so it fails for a negative time. -/
def hasAt (v : List (Pars K)) (t : Int) : Res Bool :=
  if 0 ≤ t ∧ t < v.length then do
    let p ← vget v t
    ok (p.length != 0)
  else ok false

/-- The loop over all locations (src/client/ParameterFile/ParameterFile.cpp:164-176): `minDist` and `iNearestLocation`. -/
def scan [HasArcC K] (t : Int) (l : Loc K) : ParMap K → Fl K × Loc K → Res (Fl K × Loc K)
  | [], s => ok s
  | e :: m, s => do
    let dist ← getDistance (fin l.lat) (fin l.lon) (fin e.1.lat) (fin e.1.lon)
    let has ← hasAt e.2 t
    scan t l m (if (!isValid s.1 || (isValid dist && dist.lt s.1)) && has then (dist, e.1) else s)

/-- The iterator `it2` (src/client/ParameterFile/ParameterFile.cpp:147-154): the place itself, or the nearest place of the tree. A null
root, an index outside `mLocations` and the end of the map are dereferenced. -/
def candidate [HasArcC K] (f : ParFile K) (l : Loc K) : Res (Loc K × List (Pars K)) :=
  match f.pars.find l with
  | some e => ok e
  | none => do
    let ij ← f.tree.getNearestNeighbour (fin l.lat) (fin l.lon)
    let loc ← vget f.locations ij.1
    match f.pars.find loc with
    | some e => ok e
    | none => .ub

/-- `ParameterFile::getNearestLocation` (src/client/ParameterFile/ParameterFile.cpp:139-189); `none` is the result false. The test at
line 162 is always true there: the place itself, if it is in the map, is the candidate that has just been turned down. -/
def getNearestLocation [HasArcC K] (f : ParFile K) (t : Int) (l : Loc K) : Res (Option (Loc K)) :=
  match f.pars with
  | [e] => ok (some e.1)
  | _ => do
    let c ← f.candidate l
    let has ← hasAt c.2 t
    if has then ok (some c.1)
    else do
      let s ← scan t l f.pars (MV, l)
      ok (if isValid s.1 then some s.2 else none)

/-- The place that is looked up (src/client/ParameterFile/ParameterFile.cpp:119-124). -/
def place [HasArcC K] (f : ParFile K) (t : Int) (l : Loc K) (nearest : Bool) : Res (Option (Loc K)) :=
  if nearest then f.getNearestLocation t l else ok (some l)

/-- `ParameterFile::getParameters` with a location (src/client/ParameterFile/ParameterFile.cpp:93-137). -/
def getParameters [HasArcC K] (f : ParFile K) (time : Int) (l : Loc K) (nearest : Bool) : Res (Pars K) := do
  let t ← f.timeIndex time
  if f.pars.length = 0 then ok []
  else do
    let loc ← f.place t l nearest
    match loc with
    | none => ok []
    | some loc =>
      match f.pars.find loc with
      | none => ok []
      | some e => atTime e.2 t

/-- `ParameterFile::getTimes` (src/client/ParameterFile/ParameterFile.cpp:212-221). -/
def getTimes (f : ParFile K) : List Nat := List.range ((f.pars.map fun e => e.2.length).foldr max 0)

/-- The loop over the times of a location in `getNumParameters` (src/client/ParameterFile/ParameterFile.cpp:243-254): a value to return
at once, or `size`. -/
def numLoop : List (Pars K) → Int → Int ⊕ Int
  | [], size => .inr size
  | p :: v, size =>
    if p.length ≠ 0 then if size ≠ -999 ∧ (p.length : Int) ≠ size then .inl (-999) else numLoop v p.length
    else .inl 0

/-- `ParameterFile::getNumParameters` (src/client/ParameterFile/ParameterFile.cpp:237-257): the sets of all locations one after the
other. `size` is an `int`, -999 if not yet known. -/
def getNumParameters (f : ParFile K) : Int :=
  match numLoop (f.pars.flatMap Prod.snd) (-999) with
  | .inl n => n
  | .inr n => n

end ParFile

end Gridpp.Client
