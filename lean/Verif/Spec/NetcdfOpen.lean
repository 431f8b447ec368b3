import Verif.Model.Client.FileNetcdfOpen
import Verif.Spec.NetcdfField

/-! # What a NetCDF file with forecasts says about its grid and its times -/

namespace Gridpp.Spec
open Gridpp.Client

variable {K : Type}

/-- The names that are looked for: the one that is given, or the usual ones. -/
def namesOr (given : Option Str) (usual : List Str) : List Str := given.elim usual fun n => [n]

/-- The dimension with the first of the names that is there; `none` is allowed if there are none of them and no name is given. -/
def DimChoice (f : NcFile K) (given : Option Str) (usual : List Str) : Option Nat → Prop
  | some d => FirstDim f (namesOr given usual) d
  | none => given = none ∧ ∀ m ∈ usual, m ∉ f.dims.map Prod.fst

/-- The dimensions of the file. The name of the dimension of the members need not exist. -/
structure LayoutOf (f : NcFile K) (o : NcFileOptions) (L : NcLayout) : Prop where
  time : DimChoice f o.timeDim ["time".toList] L.time
  ens : (∃ d, L.ens = some d ∧ FirstDim f (namesOr o.ensDim ["ensemble_member".toList]) d) ∨
    L.ens = none ∧ o.ensDim.getD "ensemble_member".toList ∉ f.dims.map Prod.fst
  y : DimChoice f o.yDim ["y".toList, "latitude".toList, "lat".toList] L.y
  x : DimChoice f o.xDim ["x".toList, "longitude".toList, "lon".toList] L.x

/-- The size of a dimension, 1 without one. -/
def dimCount (f : NcFile K) : Option Nat → Nat
  | some d => dimLength f d
  | none => 1

/-- The variable says that the cells of the grid have these values: it has both dimensions, or only one of them and no missing values. -/
def GridValues [Field K] [DecidableEq K] (f : NcFile K) (L : NcLayout) (v : NcVar K) (value : Nat → Nat → Fl K) : Prop :=
  FineVar f v ∧
  ((∃ dY dX, L.y = some dY ∧ L.x = some dX ∧ dY ≠ dX ∧ v.dims.Nodup ∧ dY ∈ v.dims ∧ dX ∈ v.dims ∧ (∀ d ∈ v.dims, 0 < dimLength f d ∨ d = dY ∨ d = dX) ∧
      ∀ i < dimLength f dY, ∀ j < dimLength f dX, ∃ raw, ValueAt f v (gridPos dY dX i j) raw ∧ value i j = meaning v.fill raw) ∨
   ∃ d, v.dims = [d] ∧ (some d = L.x ∨ some d = L.y) ∧ (∀ w ∈ v.values, meaning v.fill w = w) ∧
      ∀ i < dimCount f L.y, ∀ j < dimCount f L.x, ValueAt f v (fun _ => if some d = L.x then j else i) (value i j))

/-- An elevation from a geopotential. -/
def fromGeopotential [Field K] [DecidableEq K] : Fl K → Fl K
  | .fin q => if q = -999 then .fin (-999) else .fin (q / (981 / 100))
  | x => x

/-- The elevations: `none` if the file does not have any. -/
def ElevationsOf [Field K] [DecidableEq K] (f : NcFile K) (o : NcFileOptions) (L : NcLayout) (elev : Option (Nat → Nat → Fl K)) : Prop :=
  (∃ v e, v ∈ f.vars ∧ v.name = o.elevVar.getD "altitude".toList ∧ GridValues f L v e ∧ elev = some e) ∨
  o.elevVar.getD "altitude".toList ∉ f.vars.map NcVar.name ∧
    ((o.elevVar = none ∧ ∃ v e, v ∈ f.vars ∧ v.name = "surface_geopotential".toList ∧ GridValues f L v e ∧ elev = some fun i j => fromGeopotential (e i j)) ∨
     (o.elevVar = none → "surface_geopotential".toList ∉ f.vars.map NcVar.name) ∧ elev = none)

/-- The part of land, missing if the file does not have it. -/
def FractionsOf [Field K] [DecidableEq K] (f : NcFile K) (o : NcFileOptions) (L : NcLayout) (part : Nat → Nat → Fl K) : Prop :=
  (∃ v, v ∈ f.vars ∧ v.name = o.lafVar.getD "land_area_fraction".toList ∧ GridValues f L v part) ∨
  o.lafVar.getD "land_area_fraction".toList ∉ f.vars.map NcVar.name ∧ ∀ i j, part i j = .fin (-999)

/-- The grid of a file. -/
structure ForecastGrid (K : Type) where
  layout : NcLayout
  lat : Nat → Nat → K
  lon : Nat → Nat → K
  elev : Option (Nat → Nat → Fl K)
  part : Nat → Nat → Fl K

/-- The file has this grid. -/
structure ForecastGrid.Of [Field K] [LinearOrder K] (g : ForecastGrid K) (f : NcFile K) (o : NcFileOptions) : Prop where
  names : FineNames f
  dims : LayoutOf f o g.layout
  rows : 0 < dimCount f g.layout.y
  lats : ∃ v, FirstVar f (namesOr o.latVar ["latitude".toList, "lat".toList]) v ∧ GridValues f g.layout v fun i j => .fin (g.lat i j)
  lons : ∃ v, FirstVar f (namesOr o.lonVar ["longitude".toList, "lon".toList]) v ∧ GridValues f g.layout v fun i j => .fin (g.lon i j)
  latRange : ∀ i < dimCount f g.layout.y, ∀ j < dimCount f g.layout.x, -90 ≤ g.lat i j ∧ g.lat i j ≤ 90
  lonRange : ∀ i < dimCount f g.layout.y, ∀ j < dimCount f g.layout.x, -360 ≤ g.lon i j ∧ g.lon i j ≤ 360
  elevs : ElevationsOf f o g.layout g.elev
  fractions : FractionsOf f o g.layout g.part

/-- The reference time of the file, missing if it does not have it. -/
def ReferenceOf [Field K] (f : NcFile K) (ref : Fl K) : Prop :=
  (∃ v ∈ f.vars, v.name = "forecast_reference_time".toList ∧ v.dims = [] ∧ v.values = [ref]) ∨
  "forecast_reference_time".toList ∉ f.vars.map NcVar.name ∧ ref = .fin (-999)

/-- The variable with the times, if there is one. One that is given must be there. -/
def TimeVarOf (f : NcFile K) (o : NcFileOptions) : Option (NcVar K) → Prop
  | some v => v ∈ f.vars ∧ v.name = o.timeVar.getD "time".toList
  | none => o.timeVar = none ∧ "time".toList ∉ f.vars.map NcVar.name

/-- A known time: a number other than -999. -/
def KnownTime [Field K] (x : Fl K) : Prop := ∃ q, x = .fin q ∧ q ≠ -999

/-- Where the value of a cell is: the first index in dimensions that are not of the grid. -/
def cellPos (L : NcLayout) (i j d : Nat) : Nat := if some d = L.y then i else if some d = L.x then j else 0

/-- How an elevation is kept in a file: anything that is not a number, and -999, as the value for missing. -/
def elevationForm [Field K] [DecidableEq K] (fill : Fl K) : Fl K → Fl K
  | .fin q => if q = -999 then fill else .fin q
  | _ => fill

/-- The variable has the dimensions of the grid and no other ones. -/
def HorizontalVar (L : NcLayout) (v : NcVar K) : Prop :=
  (∃ dY dX, L.y = some dY ∧ L.x = some dX ∧ dY ≠ dX ∧ (v.dims = [dY, dX] ∨ v.dims = [dX, dY])) ∨
  ∃ d, v.dims = [d] ∧ (L.y = some d ∧ L.x = none ∨ L.y = none ∧ L.x = some d)

end Gridpp.Spec
