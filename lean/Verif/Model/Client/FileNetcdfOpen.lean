import Verif.Model.Client.FileNetcdf
import Verif.Model.Client.FileText

/-!
# src/client/File/Netcdf.cpp: opening a NetCDF file with forecasts

`size_t len = Util::MV` in `getDimSize` converts -999 to an unsigned number, which is undefined in C++ whatever is done next. It is taken here to have no
effect, and the size of a dimension that is not there to be invalid, as the code expects.
-/

set_option linter.unusedSectionVars false

namespace Gridpp.Client
open Fl Res

variable {K : Type} [Field K] [LinearOrder K]

/-- The size along the dimension of the grid (src/client/File/Netcdf.cpp:1206-1211): 1 without the dimension. -/
def gridSize (f : NcFile K) : Option Nat → Res Nat
  | some d => f.dimSize d
  | none => ok 1

/-- The layout with the dimensions of the grid only. -/
def NcLayout.grid (L : NcLayout) : NcLayout := ⟨none, none, L.y, L.x⟩

/-- `getLatLonVariable` (src/client/File/Netcdf.cpp:1201-1296). -/
def latLonGrid (f : NcFile K) (L : NcLayout) (v : NcVar K) : Res (List (List (Fl K))) := do
  let numY ← gridSize f L.y
  let numX ← gridSize f L.x
  match v.dims with
  | [d] =>
    -- the array has room for the values, since its size is that of the dimension
    if some d = L.x then gridOf numY numX fun _ j => vget v.values j
    else if some d = L.y then gridOf numY numX fun i _ => vget v.values i
    else error
  | dims =>
    match rolePos L.grid .x 0 dims none, rolePos L.grid .y 0 dims none with
    | some xPos, some yPos => do
      let count ← mapM (slabCount f L.grid) dims
      let sizes ← mapM f.dimSize dims
      -- the library fails, or writes more than there is room for
      match ncGetVara sizes (dims.map fun _ => (0 : Int)) count v.values with
      | none => error
      | some values =>
        if numX * numY < values.length then .ub
        else gridOf numY numX fun i j => do
          let value ← vget values (if yPos < xPos then i * numX + j else j * numY + i : Nat)
          assert (decide ((if yPos < xPos then i * numX + j else j * numY + i) < numX * numY))
          ok (if value.feq v.missing then MV else value)
    | _, _ => error

/-- The options of a NetCDF file (src/client/File/Netcdf.cpp:25-98); `none` if they are not given. -/
structure NcFileOptions where
  latVar : Option Str
  lonVar : Option Str
  timeVar : Option Str
  ensDim : Option Str
  yDim : Option Str
  xDim : Option Str
  timeDim : Option Str
  elevVar : Option Str
  lafVar : Option Str

/-- A variable: the name that is given, or the first of the names that is there (src/client/File/Netcdf.cpp:26-34, 671-683, 690-702). -/
def chooseVar (f : NcFile K) (given : Option Str) (names : List Str) : Res (NcVar K) :=
  match given with
  | some n => (f.var n).elim error ok
  | none => (names.findSome? f.var).elim error ok

/-- The variable with the times (src/client/File/Netcdf.cpp:36-39, 684-689): there need not be one. -/
def chooseTimeVar (f : NcFile K) (given : Option Str) : Res (Option (NcVar K)) :=
  match given with
  | some n => (f.var n).elim error fun v => ok (some v)
  | none => ok (f.var "time".toList)

/-- A dimension (src/client/File/Netcdf.cpp:50-63, 645-670): the name that is given, or the first of the names that is there, if any. -/
def chooseDim (f : NcFile K) (given : Option Str) (names : List Str) : Res (Option Nat) :=
  match given with
  | some n => (f.dimId n).elim error fun d => ok (some d)
  | none => ok (names.findSome? f.dimId)

/-- The variable with the elevations, and what they are multiplied with (src/client/File/Netcdf.cpp:70-92). -/
def chooseElev (f : NcFile K) (given : Option Str) : Option (NcVar K × K) :=
  match given with
  | some n => (f.var n).map fun v => (v, 1)
  | none =>
    match f.var "altitude".toList with
    | some v => some (v, 1)
    | none => (f.var "surface_geopotential".toList).map fun v => (v, 1 / (981 / 100))

/-- The reference time that is in the file (src/client/File/Netcdf.cpp:154-166); missing if there is none. -/
def fileReferenceTime (f : NcFile K) : Res (Fl K) :=
  match f.var "forecast_reference_time".toList with
  | none => ok MV
  | some v => if v.dims.length ≠ 0 then error else vget v.values 0

/-- The times and the reference time (src/client/File/Netcdf.cpp:168-206). All values of the variable are written to an array of the size of the dimension
of the times, or of one number if there is none. -/
def fileTimes (f : NcFile K) (timeVar : Option (NcVar K)) (timeDim : Option Nat) (ref : Fl K) : Res (List (Fl K) × Fl K) :=
  match timeVar with
  | some v =>
    match timeDim with
    | some d => do
      let size ← f.dimSize d
      if size = 0 then ok ([], ref)
      else if v.values.length = size then do
        let first ← vget v.values 0
        ok (v.values, if isValid ref then ref else first)
      else .ub
    | none => if 1 < v.values.length then .ub else ok ([v.values.headD MV], ref)
  | none => if isValid ref then ok ([ref], ref) else error

/-- What is known of a file that has been opened. -/
structure NcForecast (K : Type) where
  layout : NcLayout
  nEns : Nat
  grid : GridFile K
  elevs : List (List (Fl K))
  fractions : List (List (Fl K))
  times : List (Fl K)
  reference : Fl K
  deriving DecidableEq

/-- Elevations from a variable, if there is one (src/client/File/Netcdf.cpp:116-137); the result of `setElevs` is not looked at. Without them there are none,
and `getElevs` gives missing values. -/
def openElevs (f : NcFile K) (L : NcLayout) (lats : List (List (Fl K))) : Option (NcVar K × K) → Res (List (List (Fl K)))
  | none => ok []
  | some (v, scale) => do
    let e ← latLonGrid f L v
    let nX ← numX lats
    let e' ← gridOf lats.length nX fun i j => do
      let x ← vget2 e i j
      ok (if isValid x then x * fin scale else x)
    let r ← setElevs lats e'
    ok (r.getD [])

/-- The part of land (src/client/File/Netcdf.cpp:94-97, 139-151). -/
def openFractions (f : NcFile K) (L : NcLayout) (lats : List (List (Fl K))) (given : Option Str) : Res (List (List (Fl K))) :=
  match f.var (given.getD "land_area_fraction".toList) with
  | some v => latLonGrid f L v
  | none => do
    let nX ← numX lats
    ok (List.replicate lats.length (List.replicate nX MV))

/-- The dimensions (src/client/File/Netcdf.cpp:41-63). -/
def openLayout (f : NcFile K) (o : NcFileOptions) : Res NcLayout := do
  let ens := f.dimId (o.ensDim.getD "ensemble_member".toList)
  let y ← chooseDim f o.yDim ["y".toList, "latitude".toList, "lat".toList]
  let x ← chooseDim f o.xDim ["x".toList, "longitude".toList, "lon".toList]
  let time ← chooseDim f o.timeDim ["time".toList]
  ok ⟨time, ens, y, x⟩

/-- The constructor of `FileNetcdf` for a file that could be opened (src/client/File/Netcdf.cpp:8-206), up to the list of variables. The check of the options (line 98) is left out. `tag` and `next` are
the tag of the new file and `mNextTag`. -/
def openNetcdf [FloorRing K] (tag next : Nat) (o : NcFileOptions) (f : NcFile K) : Res (NcForecast K) := do
  let latVar ← chooseVar f o.latVar ["latitude".toList, "lat".toList]
  let lonVar ← chooseVar f o.lonVar ["longitude".toList, "lon".toList]
  let timeVar ← chooseTimeVar f o.timeVar
  let L ← openLayout f o
  let nEns ← gridSize f L.ens
  let lats ← latLonGrid f L latVar
  let g1 ← setLats ⟨[], [], tag⟩ next lats
  match g1 with
  | none => error
  | some (g1, n1) => do
    let lons ← latLonGrid f L lonVar
    let g2 ← setLons g1 n1 lons
    match g2 with
    | none => error
    | some (g2, _) => do
      let elevs ← openElevs f L g2.lats (chooseElev f o.elevVar)
      let fractions ← openFractions f L g2.lats o.lafVar
      let ref ← fileReferenceTime f
      let times ← fileTimes f timeVar L.time ref
      ok ⟨L, nEns, g2, elevs, fractions, times.1, times.2⟩

end Gridpp.Client
