import Verif.Model.Client.Util
import Verif.Model.OI

/-!
# Calibrators of the client that treat every value or grid point by itself

The file is reduced to its sizes and, for each variable, its fields in order of time: `File::getField` and
`File::addField` (src/client/File/File.cpp:79-165) look up and replace an entry; reading and writing files is not
modelled. Different variables are different fields. Options are arguments.
-/

set_option linter.unusedSectionVars false

namespace Gridpp.Client
open Fl Res

variable {K : Type} [Field K] [LinearOrder K]

/-- A loop over time steps that changes the field of each time by itself. -/
def eachTime (body : Nat → FieldC K → Res (FieldC K)) (fields : List (FieldC K)) : Res (List (FieldC K)) :=
  mapM (fun t : Nat => do
    let f ← vget fields t
    body t f) (List.range fields.length)

/-! ### accumulate, deaccumulate -/

/-- `fieldsAcc[t]` (src/client/Calibrator/Accumulate.cpp:23-42) from the accumulated fields of the earlier times. -/
def accumulateAt (Y X E : Nat) (fields accs : List (FieldC K)) (t : Nat) : Res (FieldC K) := do
  let empty ← FieldC.new Y X E MV
  FieldC.forAll Y X E (fun f y x e =>
    if t = 0 then f.set y x e (fin 0)
    else do
      let pf ← vget accs ((t : Int) - 1)
      let previous ← pf.get y x e
      let cf ← vget fields t
      let current ← cf.get y x e
      if isValid current && isValid previous then f.set y x e (current + previous)
      else f.set y x e MV) empty

/-- `CalibratorAccumulate::calibrateCore` (src/client/Calibrator/Accumulate.cpp:8-47). -/
def accumulate (Y X E : Nat) (fields : List (FieldC K)) : Res (List (FieldC K)) :=
  buildM fields.length (accumulateAt Y X E fields)

/-- `fields[t]` (src/client/Calibrator/Deaccumulate.cpp:24-43). -/
def deaccumulateAt (Y X E : Nat) (window : Int) (accs : List (FieldC K)) (t : Nat) : Res (FieldC K) := do
  let empty ← FieldC.new Y X E MV
  FieldC.forAll Y X E (fun f y x e =>
    if (t : Int) < window then f.set y x e MV
    else do
      let pf ← vget accs ((t : Int) - window)
      let previous ← pf.get y x e
      let cf ← vget accs t
      let current ← cf.get y x e
      if isValid current && isValid previous then f.set y x e (current - previous)
      else f.set y x e MV) empty

/-- `CalibratorDeaccumulate::calibrateCore` (src/client/Calibrator/Deaccumulate.cpp:10-49); `window` is the option of
that name, which is not checked. -/
def deaccumulate (Y X E : Nat) (window : Int) (accs : List (FieldC K)) : Res (List (FieldC K)) :=
  mapM (deaccumulateAt Y X E window accs) (List.range accs.length)

/-! ### qc, cloud, phase, threshold -/

/-- The new value in `qc` (src/client/Calibrator/Qc.cpp:35-38). -/
def qcValue (min max value : Fl K) : Fl K :=
  if isValid min && value.lt min then min
  else if isValid max && value.gt max then max
  else value

/-- `CalibratorQc::calibrateCore` (src/client/Calibrator/Qc.cpp:18-46). -/
def qc (Y X E : Nat) (min max : Fl K) (fields : List (FieldC K)) : Res (List (FieldC K)) :=
  eachTime (fun _ => FieldC.forAll Y X E fun f y x e => do
    let value ← f.get y x e
    if isValid value then f.set y x e (qcValue min max value) else ok f) fields

/-- `CalibratorCloud::calibrateCore` (src/client/Calibrator/Cloud.cpp:12-46). -/
def cloud (Y X E : Nat) (value : Fl K) (precips fields : List (FieldC K)) : Res (List (FieldC K)) :=
  eachTime (fun t cloud => do
    let precip ← vget precips t
    FieldC.forAll Y X E (fun f y x e => do
      let currPrecip ← precip.get y x e
      let currCloud ← f.get y x e
      if isValid currPrecip && isValid currCloud then do
        let f' ← f.set y x e currCloud
        if currPrecip.gt (fin 0) && currCloud.lt value then f'.set y x e value else ok f'
      else ok f) cloud) fields

/-- The phase (src/client/Calibrator/Phase.cpp:38-54). `minPrecip` is always 0.2: the option of that name is described
(line 75) but not read (lines 12-15). -/
def phaseOf (snow rain temp precip : Fl K) : Fl K :=
  if isValid temp && isValid precip then
    if precip.le (fin (1 / 5)) then fin 0
    else if temp.le snow then fin 3
    else if temp.le rain then fin 2
    else fin 1
  else MV

/-- `CalibratorPhase::calibrateCore` (src/client/Calibrator/Phase.cpp:18-62). -/
def phase (Y X E : Nat) (snow rain : Fl K) (temps precips fields : List (FieldC K)) : Res (List (FieldC K)) :=
  eachTime (fun t phase => do
    let temp ← vget temps t
    let precip ← vget precips t
    FieldC.forAll Y X E (fun f y x e => do
      let currTemp ← temp.get y x e
      let currPrecip ← precip.get y x e
      f.set y x e (phaseOf snow rain currTemp currPrecip)) phase) fields

/-- The search for the interval (src/client/Calibrator/Threshold.cpp:41-51), from threshold `p` on. -/
def thresholdValue (values : List (Fl K)) (value : Fl K) : List (Fl K) → List Int → Nat → Res (Fl K)
  | th :: ths, eq :: eqs, p =>
    if value.lt th then vget values p
    else if value.feq th && decide (eq = 1) then vget values p
    else thresholdValue values value ths eqs (p + 1)
  | [], _, p => vget values p
  | _ :: _, [], _ => .ub

/-- The size checks of the constructor (src/client/Calibrator/Threshold.cpp:9-23); `none`: no option `equals`. -/
def thresholdOptions (thresholds values : List (Fl K)) (equals : Option (List Int)) : Res (List Int) :=
  let eqs := match equals with
    | some l => l
    | none => List.replicate thresholds.length 0
  if values.length ≠ thresholds.length + 1 then error
  else if eqs.length ≠ thresholds.length then error
  else ok eqs

/-- `CalibratorThreshold`, constructor and `calibrateCore` (src/client/Calibrator/Threshold.cpp:7-58). The loop over
members is the outermost one here; the values are treated independently. -/
def threshold (Y X E : Nat) (thresholds values : List (Fl K)) (equals : Option (List Int)) (fields : List (FieldC K)) :
    Res (List (FieldC K)) := do
  let eqs ← thresholdOptions thresholds values equals
  eachTime (fun _ => FieldC.forAll Y X E fun f y x e => do
    let value ← f.get y x e
    if isValid value then do
      let v ← thresholdValue values value thresholds eqs 0
      f.set y x e v
    else ok f) fields

/-! ### sort, shuffle -/

/-- The valid values first, the rest of the `nEns` places missing (src/client/Calibrator/Sort.cpp:30-38);
`values` has at least `nEns` elements. -/
def missingLast (E : Nat) (values : List (Fl K)) : List (Fl K) :=
  let v := (values.take E).filter isValid
  v ++ List.replicate (E - v.length) MV

/-- `CalibratorSort::calibrateCore` (src/client/Calibrator/Sort.cpp:11-47). -/
def sort (Y X E : Nat) (fields : List (FieldC K)) : Res (List (FieldC K)) :=
  eachTime (fun _ => FieldC.forCells Y X fun f y x => do
    let values ← f.ens y x
    let sorted ← stdSort values
    let ml := missingLast E sorted
    foldM (fun f e => do
      let v ← vget ml (e : Nat)
      f.set y x e v) f (List.range E)) fields

/-- `Calibrator::shuffle` (src/client/Calibrator/Calibrator.cpp:105-130): the new `iAfter`. `A.sortFirst` is
`std::sort` by the first element of a pair, which need not be stable. -/
def shuffle (A : Arma K) (before after : List (Fl K)) : Res (List (Fl K)) :=
  if before.length ≠ after.length then ok after
  else if before.length = 0 then ok after
  else if (before.zip after).any fun p => !isValid p.1 || !isValid p.2 then ok after
  else do
    let pairs := A.sortFirst before.zipIdx
    let sorted ← stdSort after
    foldM (fun res e => do
      let p ← vget pairs (e : Nat)
      let v ← vget sorted (e : Nat)
      vset res p.2 v) after (List.range before.length)

/-! ### window -/

/-- The time steps of the window around `t` (src/client/Calibrator/Window.cpp:72-79). `int` division; the length is
positive. -/
def windowRange (length : Int) (before : Bool) (nTime : Nat) (t : Nat) : Int × Int :=
  if before then (Max.max 0 ((t : Int) - (length - 1)), Min.min ((nTime : Int) - 1) t)
  else
    let b := (length - 1) / 2
    let a := length - b - 1
    (Max.max 0 ((t : Int) - b), Min.min ((nTime : Int) - 1) ((t : Int) + a))

/-- One value (src/client/Calibrator/Window.cpp:68-97): the window vector has `length` places, those not filled are
missing. `keepMissing` with `numMissing`, a `bool` that counts. -/
def windowValue [FloorRing K] [HasSqrt K] (length : Int) (before keepMissing edgeMissing : Bool) (s : StatType) (quantile : Fl K)
    (fields : List (FieldC K)) (t y x e : Nat) : Res (Fl K) := do
  let r := windowRange length before fields.length t
  assert (decide (r.2 - r.1 + 1 ≤ length))
  if edgeMissing && decide (r.2 - r.1 + 1 ≠ length) then ok MV
  else do
    let read ← mapM (fun tt => do
      let f ← vget fields tt
      f.get y x e) (irange r.1 r.2)
    if keepMissing && read.any (fun v => !isValid v) then ok MV
    else calculateStat (read ++ List.replicate (length.toNat - read.length) MV) s quantile

/-- The checks of the constructor of `CalibratorWindow` (src/client/Calibrator/Window.cpp:27-47) after parsing. -/
def windowOptions (length : Int) (s : StatType) (quantile : Fl K) : Res Unit :=
  if length < 1 then error
  else if s = .quantile && (!isValid quantile || quantile.lt 0 || quantile.gt 1) then error
  else ok ()

/-- `CalibratorWindow`, constructor and `calibrateCore` (src/client/Calibrator/Window.cpp:27-105). The new fields are
separate from the old ones. -/
def window [FloorRing K] [HasSqrt K] (Y X E : Nat) (length : Int) (before keepMissing edgeMissing : Bool) (s : StatType)
    (quantile : Fl K) (fields : List (FieldC K)) : Res (List (FieldC K)) := do
  windowOptions length s quantile
  mapM (fun t : Nat => do
    let empty ← FieldC.new Y X E MV
    FieldC.forAll Y X E (fun f y x e => do
      let v ← windowValue length before keepMissing edgeMissing s quantile fields t y x e
      f.set y x e v) empty) (List.range fields.length)

end Gridpp.Client
