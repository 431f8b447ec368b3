import Verif.Model.Client.Netcdf
import Verif.Model.Client.ParameterFile

/-! # src/client/ParameterFile/Netcdf.cpp: parameters in a NetCDF file -/

set_option linter.unusedSectionVars false

namespace Gridpp.Client
open Fl Res

variable {K : Type} [Field K] [LinearOrder K]

/-- The options (src/client/ParameterFile/Netcdf.cpp:11-20): without them `coeff`, `coefficient` and two empty names. -/
structure NcOptions where
  dimName : Str
  varName : Str
  xDim : Str
  yDim : Str
  cycling : Bool

/-- The first of the names that is the name of a dimension; `given` is used if it is not empty. -/
def findDim (f : NcFile K) (given : Str) (names : List Str) : Res Nat :=
  if given ≠ [] then (f.dimId given).elim error ok
  else (names.findSome? f.dimId).elim error ok

/-- `getLatDim` (src/client/ParameterFile/Netcdf.cpp:422-435). -/
def latDim (f : NcFile K) (o : NcOptions) : Res Nat := findDim f o.yDim ["lat".toList, "latitude".toList, "y".toList]

/-- `getLonDim` (src/client/ParameterFile/Netcdf.cpp:437-450). -/
def lonDim (f : NcFile K) (o : NcOptions) : Res Nat := findDim f o.xDim ["lon".toList, "longitude".toList, "x".toList]

/-- `getCoefficientDim` (src/client/ParameterFile/Netcdf.cpp:461-468). -/
def coeffDim (f : NcFile K) (o : NcOptions) : Res Nat := (f.dimId o.dimName).elim error ok

/-- The latitude or longitude variable (src/client/ParameterFile/Netcdf.cpp:47-65). -/
def placeVar (f : NcFile K) (short long : Str) : Res (NcVar K) :=
  match f.var short with
  | some v => ok v
  | none => (f.var long).elim error ok

/-- The loop over the dimensions in `getGridValues` (src/client/ParameterFile/Netcdf.cpp:566-586): `indexLat`, `indexLon` and `size`. -/
def gridDims (dLat dLon nLat nLon : Nat) : Nat → List Nat → Option Nat × Option Nat × Nat → Option Nat × Option Nat × Nat
  | _, [], s => s
  | k, d :: ds, s =>
    gridDims dLat dLon nLat nLon (k + 1) ds
      (if d = dLat then (some k, s.2.1, s.2.2 * nLat) else if d = dLon then (s.1, some k, s.2.2 * nLon) else s)

/-- A grid that is filled by two loops. -/
def gridOf (nLat nLon : Nat) (g : Nat → Nat → Res (Fl K)) : Res (List (List (Fl K))) :=
  mapM (fun i => mapM (fun j => g i j) (List.range nLon)) (List.range nLat)

/-- `getGridValues` (src/client/ParameterFile/Netcdf.cpp:520-608). All values of the variable are written into an array of `size` values, which need not be
enough; what is not written is uninitialised. -/
def gridValues (f : NcFile K) (o : NcOptions) (v : NcVar K) : Res (List (List (Fl K))) := do
  let dLat ← latDim f o
  let dLon ← lonDim f o
  let nLat ← f.dimSize dLat
  let nLon ← f.dimSize dLon
  match v.dims with
  | [d] =>
    if d = dLat then gridOf nLat nLon fun i _ => vget v.values i
    else if d = dLon then gridOf nLat nLon fun _ j => vget v.values j
    else error
  | dims =>
    match gridDims dLat dLon nLat nLon 0 dims (none, none, 1) with
    | (some a, some b, size) =>
      if size < v.values.length then .ub
      else gridOf nLat nLon fun i j => vget v.values (if a < b then i * nLon + j else j * nLat + i : Nat)
    | _ => error

/-- `getNcFloats` (src/client/ParameterFile/Netcdf.cpp:498-518). -/
def ncFloats (f : NcFile K) (v : NcVar K) : Res (List (Fl K)) := do
  let size ← f.totalSize v
  if size = 0 then .abort
  else ok (v.values.map fun x => if x.feq v.missing then MV else x)

/-- `getIndex` (src/client/ParameterFile/Netcdf.cpp:485-496). -/
def ncIndex (indices sizes : List Nat) : Res Nat := do
  let r ← foldM (fun (s : Nat × Nat) (k : Nat) => do
    let c ← vget indices k
    let n ← vget sizes k
    ok (s.1 + c * s.2, s.2 * n)) (0, 1) (List.range sizes.length).reverse
  ok r.1

/-- `getIndices` (src/client/ParameterFile/Netcdf.cpp:470-483), which is not used: from the last dimension to the first. The size of every
dimension is divided by. -/
def ncIndices (i : Nat) (sizes : List Nat) : Res (List Nat) := do
  let r ← foldM (fun (s : List Nat × Nat) (n : Nat) =>
    if s.2 = 0 ∨ n = 0 then .ub else ok (i / s.2 % n :: s.1, s.2 * n)) ([], 1) sizes.reverse
  ok r.1

/-- `mParameters` after `initializeEmpty` (src/client/ParameterFile/ParameterFile.cpp:282-289). -/
def initializeEmpty (m : ParMap K) (locations : List (Loc K)) (nTime nCoeff : Nat) : ParMap K :=
  locations.foldl (fun m l => ParMap.update l (fun _ => List.replicate nTime (List.replicate nCoeff MV)) m) m

/-- `mParameters[location][t] = p` (src/client/ParameterFile/Netcdf.cpp:183). -/
def setAt (m : ParMap K) (l : Loc K) (t : Nat) (p : Pars K) : Res (ParMap K) :=
  match m.find l with
  | some e => if t < e.2.length then ok (ParMap.update l (fun v => v.set t p) m) else .ub
  | none => .ub

/-- `Location(lat, lon, elev)`. As a key of the map NaN is undefined behaviour; infinite coordinates are left out, see `Loc`. -/
def cellLoc (lats lons elevs : List (List (Fl K))) (i j : Nat) : Res (Loc K) := do
  let a ← vget2 lats i j
  let b ← vget2 lons i j
  let e ← vget2 elevs i j
  match a, b with
  | .fin a, .fin b => ok ⟨a, b, e⟩
  | _, _ => .ub

/-- The indices of the dimensions of the coefficients (src/client/ParameterFile/Netcdf.cpp:123-153): the last that fits, `none` for `Util::MV`. -/
structure CoeffDims where
  lat : Option Nat
  lon : Option Nat
  time : Option Nat
  coeff : Option Nat

@[inherit_doc CoeffDims] def coeffDims (dLat dLon : Nat) (dTime : Option Nat) (dCoeff : Nat) : Nat → List Nat → CoeffDims → CoeffDims
  | _, [], s => s
  | k, d :: ds, s =>
    coeffDims dLat dLon dTime dCoeff (k + 1) ds
      (if d = dLat then { s with lat := some k }
      else if d = dLon then { s with lon := some k }
      else if some d = dTime then { s with time := some k }
      else if d = dCoeff then { s with coeff := some k }
      else s)

/-- `indices[k] = x`. -/
def putIndex (indices : List Nat) (k x : Nat) : Res (List Nat) := if k < indices.length then ok (indices.set k x) else .ub

/-- The same for the time, if it is a dimension (src/client/ParameterFile/Netcdf.cpp:174-176). -/
def putTime (indices : List Nat) (time : Option Nat) (t : Nat) : Res (List Nat) :=
  match time with
  | some d => putIndex indices d t
  | none => ok indices

/-- The array `indices` (src/client/ParameterFile/Netcdf.cpp:168-180). In the code it is kept from one step to the next; every entry that is not zero is
written again before it is used. -/
def coeffIndices (a b : Nat) (time : Option Nat) (c : Nat) (i j t k : Nat) : Res (List Nat) := do
  let v ← putIndex [0, 0, 0, 0] a i
  let v ← putIndex v b j
  let v ← putTime v time t
  putIndex v c k

/-- `recomputeTree` of a NetCDF file, whose `isLocationDependent` is always true (src/client/ParameterFile/ParameterFile.cpp:21-35,
src/client/ParameterFile/Netcdf.h:21). -/
def recomputeTreeAlways (sort : Bool → List (Site K) → List (Site K)) (f : ParFile K) : Res (ParFile K) := do
  let tree ← KD.build sort (f.pars.map fun e => [fin e.1.lat]) (f.pars.map fun e => [fin e.1.lon])
  ok { f with locations := f.locations ++ f.pars.map Prod.fst, tree := tree }

/-- The time dimension and the number of times (src/client/ParameterFile/Netcdf.cpp:82-96). The values of the times are read and not used. -/
def timeDim (f : NcFile K) : Res (Option Nat × Nat) :=
  match f.var "time".toList, f.dimId "time".toList with
  | some v, some d => do
    let n ← f.dimSize d
    if n < v.values.length then .ub else ok (some d, n)
  | _, _ => ok (none, 1)

/-- The altitudes; missing values if there is no such variable (src/client/ParameterFile/Netcdf.cpp:70-80). -/
def altitudes (f : NcFile K) (o : NcOptions) (nLat nLon : Nat) : Res (List (List (Fl K))) :=
  match f.var "altitude".toList with
  | some v => gridValues f o v
  | none => ok (List.replicate nLat (List.replicate nLon MV))

/-- The cells, row after row. -/
def gridCells (nLat nLon : Nat) : List (Nat × Nat) := (List.range nLat).flatMap fun i => (List.range nLon).map fun j => (i, j)

/-- The parameters of a cell and a time (src/client/ParameterFile/Netcdf.cpp:177-182). -/
def cellPars (values : List (Fl K)) (sizes : List Nat) (a b : Nat) (time : Option Nat) (c nCoeff : Nat) (i j t : Nat) : Res (Pars K) :=
  mapM (fun k => do
    let indices ← coeffIndices a b time c i j t k
    let index ← ncIndex indices sizes
    vget values index) (List.range nCoeff)

/-- The constructor of `ParameterFileNetcdf` for a file that is there (src/client/ParameterFile/Netcdf.cpp:11-198). -/
def readNetcdf (sort : Bool → List (Site K) → List (Site K)) (o : NcOptions) (f : NcFile K) : Res (ParFile K) := do
  let dLon ← lonDim f o
  let dLat ← latDim f o
  let dCoeff ← coeffDim f o
  let nLat ← f.dimSize dLat
  let nLon ← f.dimSize dLon
  let nCoeff ← f.dimSize dCoeff
  let vLat ← placeVar f "lat".toList "latitude".toList
  let lats ← gridValues f o vLat
  let vLon ← placeVar f "lon".toList "longitude".toList
  let lons ← gridValues f o vLon
  let elevs ← altitudes f o nLat nLon
  let times ← timeDim f
  let v ← (f.var o.varName).elim error ok
  if nLat * nLon * (times.2 * nCoeff) = 0 then .abort
  else do
    let values ← ncFloats f v
    let locations ← mapM (fun (p : Nat × Nat) => cellLoc lats lons elevs p.1 p.2) (gridCells nLat nLon)
    let sizes ← mapM f.dimSize v.dims
    match coeffDims dLat dLon times.1 dCoeff 0 v.dims ⟨none, none, none, none⟩ with
    | ⟨some a, some b, time, some c⟩ => do
      let m ← foldM (fun m (p : Nat × Nat) => do
        let l ← cellLoc lats lons elevs p.1 p.2
        foldM (fun m t => do
          let par ← cellPars values sizes a b time c nCoeff p.1 p.2 t
          setAt m l t par) m (List.range times.2)) (initializeEmpty [] locations times.2 nCoeff) (gridCells nLat nLon)
      let g : ParFile K := { ParFile.empty o.cycling with pars := m, timeDependent := decide (1 < times.2), maxTime := times.2 - 1 }
      if g.getNumParameters > 0 then recomputeTreeAlways sort g else .abort
    | _ => error

/-- The parameters of a place and a time as they are written (src/client/ParameterFile/Netcdf.cpp:379-394). -/
def writtenSet [HasArcC K] (f : ParFile K) (nCoeff t : Nat) (l : Loc K) : Res (Pars K) := do
  let p ← f.getParameters t l false
  if p.length = nCoeff then ok p else if p.length = 0 then ok (List.replicate nCoeff MV) else error

/-- The file that is written (src/client/ParameterFile/Netcdf.cpp:313-404). The value `k` of place `i` and time `t` is number
`t * nLat * nCoeff + i * nCoeff + k`. -/
def ncFileOf (f : ParFile K) (varName : Str) (nCoeff : Nat) (values : List (List (Pars K))) : NcFile K :=
  ⟨[("time".toList, f.getTimes.length), ("lon".toList, 1), ("lat".toList, f.locations.length), ("coeff".toList, nCoeff)],
    [⟨varName, [0, 2, 1, 3], (values.map List.flatten).flatten, none⟩,
      ⟨"latitude".toList, [2, 1], f.locations.map fun l => fin l.lat, none⟩,
      ⟨"longitude".toList, [2, 1], f.locations.map fun l => fin l.lon, none⟩,
      ⟨"altitude".toList, [2, 1], f.locations.map Loc.elev, none⟩,
      ⟨"time".toList, [0], f.getTimes.map fun t : Nat => fin (t : K), none⟩]⟩

/-- `ParameterFileNetcdf::write` for a new file (src/client/ParameterFile/Netcdf.cpp:292-406): the file afterwards. A variable cannot be made a second
time. -/
def writeNetcdf [HasArcC K] (f : ParFile K) (varName : Str) : Res (NcFile K) :=
  match f.locations with
  | [] => error
  | l0 :: _ =>
    if f.getTimes = [] then error
    else do
      let nCoeff ← foldM (fun n (t : Nat) => do
        let p ← f.getParameters t l0 false
        ok (max n p.length)) 0 f.getTimes
      if nCoeff = 0 then error
      else if varName ∈ ["latitude".toList, "longitude".toList, "altitude".toList, "time".toList] then error
      else do
        let values ← mapM (fun t => mapM (writtenSet f nCoeff t) f.locations) f.getTimes
        ok (ncFileOf f varName nCoeff values)

end Gridpp.Client
