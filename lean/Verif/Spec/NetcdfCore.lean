import Verif.Model.Client.FileNetcdfCore
import Verif.Spec.NetcdfOpen
import Verif.Lemmas.Client.Field

/-! # What it means that forecasts fit a NetCDF file -/

namespace Gridpp.Spec
open Gridpp.Client

variable {K : Type}

/-- The names of variables that are not forecasts. -/
def otherNames : List Str := ["altitude".toList, "time".toList, "forecast_reference_time".toList]

/-- Different names, and variables that have a value for all indices. -/
def FineFile (f : NcFile K) : Prop := FineNames f ∧ ∀ v ∈ f.vars, FineVar f v

/-- Dimensions may be added at the end, and the variables with these names may change or be added; nothing else does. -/
def OnlyChanges (names : List Str) (f g : NcFile K) : Prop :=
  (∃ more, g.dims = f.dims ++ more) ∧ ∀ w : NcVar K, w.name ∉ names → (w ∈ g.vars ↔ w ∈ f.vars)

/-- How a time is kept in a file. -/
def timeValue [Field K] [DecidableEq K] : Fl K → Fl K := elevationForm (.fin (15 * 2 ^ 119))

/-- An elevation is known: a number other than -999. -/
def SomeElevation [Field K] (elevs : List (List (Fl K))) : Prop := ∃ r ∈ elevs, ∃ q, .fin q ∈ r ∧ q ≠ -999

/-- The variable has room for all fields, and numbers are not mistaken for missing values. -/
structure HasRoom [Field K] [LinearOrder K] (f : NcFile K) (L : NcLayout) (out : NcOutput K) (v : NcVar K) : Prop where
  nodup : v.dims.Nodup
  others : ∀ d ∈ v.dims, OtherDim L d → 0 < dimLength f d
  rows : extent f v L.y = out.nY
  columns : extent f v L.x = out.nX
  members : extent f v L.ens = out.nE
  times : (∃ d ∈ v.dims, some d = L.time) ∨ out.times.length = 1
  fill : ∃ q, v.fill.getD (.fin (15 * 2 ^ 119)) = .fin q ∧ q ≠ -999

/-- The forecasts fit the file. -/
structure OutputFits [Field K] [LinearOrder K] (ensName : Str) (f : NcFile K) (L : NcLayout) (out : NcOutput K) (names : List Str) : Prop where
  fine : FineFile f
  different : DifferentDims L
  known : ∀ d, some d ∈ [L.time, L.ens, L.y, L.x] → d < f.dims.length
  rows : dimCount f L.y = out.nY
  columns : dimCount f L.x = out.nX
  times : (∃ d, L.time = some d ∧ dimLength f d = out.times.length ∧ ∀ v ∈ f.vars, v.name = "time".toList → v.dims = [d]) ∨
    L.time = none ∧ "time".toList ∉ f.dims.map Prod.fst ∧ "time".toList ∉ f.vars.map NcVar.name
  members : (∃ d, L.ens = some d ∧ dimLength f d = out.nE) ∨
    L.ens = none ∧ (out.nE = 1 ∨ 1 < out.nE ∧ ensName ∉ f.dims.map Prod.fst ∧ ensName ≠ "time".toList)
  reference : ∀ v ∈ f.vars, v.name = "forecast_reference_time".toList → v.dims = []
  elevs : Rect out.nY out.nX out.elevs
  altitude : SomeElevation out.elevs → (∀ v ∈ f.vars, v.name = "altitude".toList → HorizontalVar L v ∧ ∃ q, v.fill.getD (.fin (15 * 2 ^ 119)) = .fin q ∧ q ≠ -999) ∧
    ("altitude".toList ∉ f.vars.map NcVar.name → L.y ≠ none ∧ L.x ≠ none)
  nodup : names.Nodup ∧ ∀ n ∈ names, n ∉ otherNames
  room : ∀ v ∈ f.vars, v.name ∈ names → HasRoom f L out v
  fields : ∀ n ∈ names, ∀ t < out.times.length, Sized out.nY out.nX out.nE (out.field n t)

/-- The attribute for missing values of the variable with this name, or none if the variable is not there. -/
def FillOf (f : NcFile K) (n : Str) (fill : Option (Fl K)) : Prop := (∃ v ∈ f.vars, v.name = n ∧ v.fill = fill) ∨ n ∉ f.vars.map NcVar.name ∧ fill = none

/-- The layout after writing: the dimensions that were there, and new ones for the times and the members if there were none. -/
def NewLayout (ensName : Str) (f : NcFile K) (L : NcLayout) (out : NcOutput K) (g : NcFile K) (dT : Nat) (e : Option Nat) : Prop :=
  ∃ more, g.dims = f.dims ++ more ∧
    (L.time = some dT ∧ L.ens = e ∧ more = [] ∨
     L.time = none ∧ L.ens = e ∧ dT = f.dims.length ∧ more = [("time".toList, out.times.length)] ∨
     L.time = some dT ∧ L.ens = none ∧ 1 < out.nE ∧ e = some f.dims.length ∧ more = [(ensName, out.nE)] ∨
     L.time = none ∧ L.ens = none ∧ 1 < out.nE ∧ dT = f.dims.length ∧ e = some (f.dims.length + 1) ∧ more = [("time".toList, out.times.length), (ensName, out.nE)])

/-- The scale of a variable can be used, and no number is packed into the value for missing. -/
def PackedFree [Field K] [LinearOrder K] (f : NcFile K) (out : NcOutput K) (n : Str) : Prop :=
  ∃ s o, out.scale n = .fin s ∧ out.offset n = .fin o ∧ s ≠ 0 ∧
    ∀ fill, FillOf f n fill →
      ∀ t < out.times.length, ∀ y x e q, (out.field n t).get y x e = .ok (.fin q) → q ≠ -999 → fill.getD (.fin (15 * 2 ^ 119)) ≠ .fin ((q - o) / s)

/-- The grid is not described by the variables that are written, apart from the altitude, and the times are in the variable time. -/
structure KeepsGrid (o : NcFileOptions) (names : List Str) : Prop where
  lat : ∀ n ∈ otherNames ++ names, n ∉ namesOr o.latVar ["latitude".toList, "lat".toList]
  lon : ∀ n ∈ otherNames ++ names, n ∉ namesOr o.lonVar ["longitude".toList, "lon".toList]
  land : o.lafVar.getD "land_area_fraction".toList ∉ otherNames ++ names
  elev : o.elevVar.getD "altitude".toList = "altitude".toList
  geopotential : "surface_geopotential".toList ∉ names
  time : o.timeVar.getD "time".toList = "time".toList
  ens : o.ensDim.getD "ensemble_member".toList ∉ ["time".toList, "y".toList, "latitude".toList, "lat".toList, "x".toList, "longitude".toList, "lon".toList]

/-- No elevation is the value for missing. -/
def ElevationsFree [Field K] (f : NcFile K) (elevs : List (List (Fl K))) : Prop :=
  ∀ fill, FillOf f "altitude".toList fill → ∀ r ∈ elevs, fill.getD (.fin (15 * 2 ^ 119)) ∉ r

end Gridpp.Spec
