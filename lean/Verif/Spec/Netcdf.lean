import Verif.Model.Client.Netcdf
import Verif.Spec.ClientParameters

/-! # What is meant by the value of a NetCDF variable at given indices -/

namespace Gridpp.Spec
open Gridpp.Client

variable {K : Type}

/-- The number of an element, from sizes and indices of the dimensions; the last index changes fastest. -/
def rowMajor (l : List (Nat × Nat)) : Nat := l.foldl (fun n p => n * p.1 + p.2) 0

/-- The size of a dimension. -/
def dimLength (f : NcFile K) (d : Nat) : Nat := (f.dims[d]?.map Prod.snd).getD 0

/-- The value of the variable `v` is `x` where the index of each dimension `d` is `pos d`. -/
def ValueAt (f : NcFile K) (v : NcVar K) (pos : Nat → Nat) (x : Fl K) : Prop :=
  v.values[rowMajor (v.dims.map fun d => (dimLength f d, pos d))]? = some x

/-- There is a value for all indices in range, and nothing else. -/
def FineVar (f : NcFile K) (v : NcVar K) : Prop :=
  (∀ d ∈ v.dims, d < f.dims.length) ∧ v.values.length = (v.dims.map (dimLength f)).prod

/-- `d` is the number of a dimension with the first of the names that some dimension has. -/
def FirstDim (f : NcFile K) (names : List Str) (d : Nat) : Prop :=
  ∃ before n after size, names = before ++ n :: after ∧ (∀ m ∈ before, m ∉ f.dims.map Prod.fst) ∧ f.dims[d]? = some (n, size)

/-- The names that are looked for: `given` unless it is empty. -/
def dimNames (given : Str) (names : List Str) : List Str := if given = [] then names else [given]

/-- The names for the dimension of the latitudes. -/
def latNames (given : Str) : List Str := dimNames given ["lat".toList, "latitude".toList, "y".toList]

/-- The names for the dimension of the longitudes. -/
def lonNames (given : Str) : List Str := dimNames given ["lon".toList, "longitude".toList, "x".toList]

/-- The names of the dimensions are different from each other; so are those of the variables. -/
def FineNames (f : NcFile K) : Prop := (f.dims.map Prod.fst).Nodup ∧ (f.vars.map NcVar.name).Nodup

/-- Index `i` in dimension `dLat`, `j` in `dLon`, and 0 in all others. -/
def gridPos (dLat dLon i j : Nat) (d : Nat) : Nat := if d = dLat then i else if d = dLon then j else 0

/-- Index `i` in dimension `dLat`, `j` in `dLon`, `t` in `dTime`, `k` in `dCoeff`, and 0 in all others. -/
def coeffPos (dLat dLon : Nat) (dTime : Option Nat) (dCoeff i j t k : Nat) (d : Nat) : Nat :=
  if d = dLat then i else if d = dLon then j else if some d = dTime then t else if d = dCoeff then k else 0

/-- `v` is the variable with the first of the names that some variable has. -/
def FirstVar (f : NcFile K) (names : List Str) (v : NcVar K) : Prop :=
  ∃ before n after, names = before ++ n :: after ∧ (∀ m ∈ before, m ∉ f.vars.map NcVar.name) ∧ v ∈ f.vars ∧ v.name = n

/-- A variable with one or both of the two dimensions, in either order, and any others of size 1. -/
structure GridVar (f : NcFile K) (dLat dLon : Nat) (v : NcVar K) : Prop where
  fine : FineVar f v
  nodup : v.dims.Nodup
  others : ∀ d ∈ v.dims, d ≠ dLat → d ≠ dLon → dimLength f d = 1
  has : v.dims = [dLat] ∨ v.dims = [dLon] ∨ dLat ∈ v.dims ∧ dLon ∈ v.dims

/-- What a value of a variable means: the fill value, which is 15·2^119 if the variable has none of its own, is a missing value. -/
def meaning [Field K] [DecidableEq K] (fill : Option (Fl K)) (x : Fl K) : Fl K :=
  if x ≠ .nan ∧ x = fill.getD (.fin (15 * 2 ^ 119)) then .fin (-999) else x

/-- A grid of parameters: dimensions, number of times, places, and the values as they are in the file. -/
structure ParGrid (K : Type) where
  dLat : Nat
  dLon : Nat
  dCoeff : Nat
  dTime : Option Nat
  nLat : Nat
  nLon : Nat
  nCoeff : Nat
  nTime : Nat
  lat : Nat → Nat → K
  lon : Nat → Nat → K
  elev : Nat → Nat → Fl K
  fill : Option (Fl K)
  value : Nat → Nat → Nat → Nat → Fl K

/-- The file has this grid of parameters, in the variable `varName` and with the dimension `dimName` for the parameters. The two dimensions of the grid and
that of the parameters are dimensions of the variable; the times need not be. -/
structure ParGrid.Of (g : ParGrid K) [Field K] (f : NcFile K) (dimName varName xDim yDim : Str) : Prop where
  names : FineNames f
  dimLat : FirstDim f (latNames yDim) g.dLat
  dimLon : FirstDim f (lonNames xDim) g.dLon
  dimCoeff : f.dims[g.dCoeff]? = some (dimName, g.nCoeff)
  nLat : dimLength f g.dLat = g.nLat
  nLon : dimLength f g.dLon = g.nLon
  different : g.dLat ≠ g.dLon ∧ g.dCoeff ≠ g.dLat ∧ g.dCoeff ≠ g.dLon ∧ g.dTime ≠ some g.dLat ∧ g.dTime ≠ some g.dLon ∧ g.dTime ≠ some g.dCoeff
  positive : 0 < g.nLat ∧ 0 < g.nLon ∧ 0 < g.nCoeff ∧ 0 < g.nTime
  time : (g.dTime = none ∧ g.nTime = 1 ∧ ("time".toList ∉ f.dims.map Prod.fst ∨ "time".toList ∉ f.vars.map NcVar.name)) ∨
    ∃ d v, g.dTime = some d ∧ f.dims[d]? = some ("time".toList, g.nTime) ∧ v ∈ f.vars ∧ v.name = "time".toList ∧ v.values.length ≤ g.nTime
  lats : ∃ v, FirstVar f ["lat".toList, "latitude".toList] v ∧ GridVar f g.dLat g.dLon v ∧
    ∀ i < g.nLat, ∀ j < g.nLon, ValueAt f v (gridPos g.dLat g.dLon i j) (.fin (g.lat i j))
  lons : ∃ v, FirstVar f ["lon".toList, "longitude".toList] v ∧ GridVar f g.dLat g.dLon v ∧
    ∀ i < g.nLat, ∀ j < g.nLon, ValueAt f v (gridPos g.dLat g.dLon i j) (.fin (g.lon i j))
  elevs : (∃ v ∈ f.vars, v.name = "altitude".toList ∧ GridVar f g.dLat g.dLon v ∧
    ∀ i < g.nLat, ∀ j < g.nLon, ValueAt f v (gridPos g.dLat g.dLon i j) (g.elev i j)) ∨
    "altitude".toList ∉ f.vars.map NcVar.name ∧ ∀ i j, g.elev i j = .fin (-999)
  values : ∃ v ∈ f.vars, v.name = varName ∧ v.fill = g.fill ∧ FineVar f v ∧ v.dims.Nodup ∧ v.dims.length ≤ 4 ∧ g.dLat ∈ v.dims ∧ g.dLon ∈ v.dims ∧ g.dCoeff ∈ v.dims ∧
    ∀ i < g.nLat, ∀ j < g.nLon, ∀ t < g.nTime, ∀ k < g.nCoeff,
      ValueAt f v (coeffPos g.dLat g.dLon g.dTime g.dCoeff i j t k) (g.value i j t k)

/-- The parameters of a cell and a time. -/
def ParGrid.pars (g : ParGrid K) [Field K] [DecidableEq K] (i j t : Nat) : List (Fl K) :=
  (List.range g.nCoeff).map fun k => meaning g.fill (g.value i j t k)

/-- What the file says: the parameters of every cell and time, row after row. -/
def ParGrid.settings (g : ParGrid K) [Field K] [DecidableEq K] : List (Setting K) :=
  (List.range g.nLat).flatMap fun i => (List.range g.nLon).flatMap fun j => (List.range g.nTime).map fun t =>
    ⟨g.lat i j, g.lon i j, g.elev i j, t, g.pars i j t⟩

end Gridpp.Spec
