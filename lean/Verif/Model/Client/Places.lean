import Verif.Model.Client.ParameterFile
import Verif.Model.Client.WindDirection

/-!
# src/client/Calibrator/Mask.cpp, Override.cpp and Altitude.cpp: calibrators that use the places of a parameter file

The places are those of `ParameterFile::getLocations`; the parameters of a time and place are a function, see
Model/Client/ParameterFile.lean.
-/

set_option linter.unusedSectionVars false

namespace Gridpp.Client
open Fl Res

variable {K : Type} [Field K] [LinearOrder K]

/-! ### mask -/

/-- The loop over the places for one grid point (src/client/Calibrator/Mask.cpp:53-59): `isWithinRadius[i][j]`, never set back to 0. The
branch with `mUseNearestOnly` (lines 43-50) is left out: the flag is always false. -/
def maskPoint [HasArcC K] (lat lon : Fl K) (pars : Loc K → Pars K) : List (Loc K) → Bool → Res Bool
  | [], within => ok within
  | l :: locs, within => do
    let dist ← getDistance lat lon (fin l.lat) (fin l.lon)
    if isValid dist then do
      let radius ← parAt (pars l) 0
      maskPoint lat lon pars locs (within || dist.lt radius)
    else maskPoint lat lon pars locs within

/-- `isWithinRadius` after the update of time `t` (src/client/Calibrator/Mask.cpp:40-61). In the code the update of a grid point comes just
before its use. -/
def maskWithin [HasArcC K] (Y X : Nat) (timeDependent : Bool) (lats lons : List (List (Fl K))) (locs : List (Loc K)) (pars : Loc K → Pars K)
    (t : Nat) (within : List (List Bool)) : Res (List (List Bool)) :=
  if t = 0 ∨ timeDependent = true then grid2 Y X fun y x => do
    let lat ← vget2 lats y x
    let lon ← vget2 lons y x
    let old ← vget2 within y x
    maskPoint lat lon pars locs old
  else ok within

/-- The removal (src/client/Calibrator/Mask.cpp:62-69). -/
def maskField (Y X E : Nat) (keep : Bool) (within : List (List Bool)) (f : FieldC K) : Res (FieldC K) :=
  FieldC.forCells Y X (fun f y x => do
    let inside ← vget2 within (y : Int) (x : Int)
    if keep != inside then foldM (fun f e => f.set y x e MV) f (List.range E) else ok f) f

/-- The loop over time (src/client/Calibrator/Mask.cpp:35-72). -/
def maskLoop [HasArcC K] (Y X E : Nat) (keep timeDependent : Bool) (lats lons : List (List (Fl K))) (locs : List (Loc K))
    (pars : Nat → Loc K → Pars K) : Nat → List (List Bool) → List (FieldC K) → Res (List (FieldC K))
  | _, _, [] => ok []
  | t, within, f :: fields => do
    let within' ← maskWithin Y X timeDependent lats lons locs (pars t) t within
    let f' ← maskField Y X E keep within' f
    let rest ← maskLoop Y X E keep timeDependent lats lons locs pars (t + 1) within' fields
    ok (f' :: rest)

/-- `CalibratorMask::calibrateCore` (src/client/Calibrator/Mask.cpp:13-75). -/
def mask [HasArcC K] (Y X E : Nat) (keep locationDependent fixedSize timeDependent : Bool) (lats lons : List (List (Fl K)))
    (locs : List (Loc K)) (pars : Nat → Loc K → Pars K) (fields : List (FieldC K)) : Res (List (FieldC K)) :=
  if !locationDependent then error
  else if !fixedSize then error
  else maskLoop Y X E keep timeDependent lats lons locs pars 0 (List.replicate Y (List.replicate X false)) fields

/-! ### override -/

/-- One value (src/client/Calibrator/Override.cpp:54-67). `abs` is taken to be that of `float`: only <cmath> is included, and the
`abs` of <stdlib.h>, if it were chosen, would cut off the fraction. -/
def overrideCell (maxElevDiff : Fl K) (elevs : List (List (Fl K))) (currElev value : Fl K) (f : FieldC K) (y x : Int) (e : Nat) : Res (FieldC K) :=
  if !isValid maxElevDiff then f.set y.toNat x.toNat e value
  else do
    let elev ← vget2 elevs y x
    if isValid elev && isValid currElev && (Fl.abs (elev - currElev)).lt maxElevDiff then f.set y.toNat x.toNat e value else ok f

/-- One place (src/client/Calibrator/Override.cpp:46-72): `near` is its nearest grid point. -/
def overridePlace (Y X E : Nat) (radius : Int) (maxElevDiff : Fl K) (elevs : List (List (Fl K))) (currElev value : Fl K) (near : Int × Int)
    (f : FieldC K) : Res (FieldC K) :=
  if isValid value && decide (near.1 > 0 ∧ near.1 < Y - 1 ∧ near.2 > 0 ∧ near.2 < X - 1) then
    foldM (fun f (e : Nat) => foldM (fun f (y : Int) => foldM (fun f (x : Int) => overrideCell maxElevDiff elevs currElev value f y x e) f
      (irange (max 0 (near.2 - radius)) (min (X - 1) (near.2 + radius)))) f
      (irange (max 0 (near.1 - radius)) (min (Y - 1) (near.1 + radius)))) f (List.range E)
  else ok f

/-- One time (src/client/Calibrator/Override.cpp:39-73). -/
def overrideField (Y X E : Nat) (radius : Int) (maxElevDiff : Fl K) (elevs : List (List (Fl K))) (pars : Loc K → Pars K)
    (places : List (Loc K × (Int × Int))) (f : FieldC K) : Res (FieldC K) :=
  foldM (fun f p => do
    let value ← parAt (pars p.1) 0
    overridePlace Y X E radius maxElevDiff elevs p.1.elev value p.2 f) f places

/-- `CalibratorOverride::calibrateCore` (src/client/Calibrator/Override.cpp:15-76). -/
def override [HasArcC K] (sort : Bool → List (Site K) → List (Site K)) (Y X E : Nat) (radius : Int) (maxElevDiff : Fl K) (numParameters : Int)
    (locationDependent : Bool) (lats lons elevs : List (List (Fl K))) (locs : List (Loc K)) (pars : Nat → Loc K → Pars K)
    (fields : List (FieldC K)) : Res (List (FieldC K)) :=
  if numParameters ≠ 1 then error
  else if !locationDependent then error
  else do
    let tree ← KD.build sort lats lons
    let near ← mapM (fun l : Loc K => tree.getNearestNeighbour (fin l.lat) (fin l.lon)) locs
    eachTime (fun t => overrideField Y X E radius maxElevDiff elevs (pars t) (locs.zip near)) fields

/-! ### altitude -/

/-- The new elevation of a grid point (src/client/Calibrator/Altitude.cpp:23-25). A grid point whose coordinates are not numbers is left
out (see `Loc`). If no place has parameters, `loc` stays as it is, missing; that is also taken to be so if all distances are missing, where
the code stores a place and returns false. -/
def altitudePoint [HasArcC K] (f : ParFile K) (lat lon elev : Fl K) : Res (Fl K) :=
  match lat, lon with
  | fin a, fin b => do
    let loc ← f.getNearestLocation 0 ⟨a, b, elev⟩
    ok (loc.elim MV Loc.elev)
  | _, _ => .ub

/-- `CalibratorAltitude::calibrateCore` (src/client/Calibrator/Altitude.cpp:10-30): the new elevations. -/
def altitude [HasArcC K] (f : ParFile K) (Y X : Nat) (lats lons elevs : List (List (Fl K))) : Res (List (List (Fl K))) := do
  let dependent ← f.isLocationDependent
  if !dependent then error
  else grid2 Y X fun y x => do
    let lat ← vget2 lats y x
    let lon ← vget2 lons y x
    let elev ← vget2 elevs y x
    altitudePoint f lat lon elev

end Gridpp.Client
