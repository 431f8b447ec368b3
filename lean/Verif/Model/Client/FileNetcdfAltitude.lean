import Verif.Model.Client.FileNetcdfOpen
import Mathlib.Data.List.ReduceOption

/-! # src/client/File/Netcdf.cpp: the variable altitude is defined and written -/

set_option linter.unusedSectionVars false

namespace Gridpp.Client
open Fl Res

variable {K : Type} [Field K] [LinearOrder K]

/-- A position as an `int`, -999 if there is none. -/
def posInt (p : Option Nat) : Int := p.elim (-999) fun n : Nat => (n : Int)

/-- Whether the rows come first in a variable: `indexY < indexX` (src/client/File/Netcdf.cpp:717-727, 737). -/
def rowsFirst (L : NcLayout) (dims : List Nat) : Bool :=
  decide (posInt (rolePos ⟨none, none, L.y, none⟩ .y 0 dims none) < posInt (rolePos ⟨none, none, none, L.x⟩ .x 0 dims none))

/-- The order of the dimensions: that of the latitudes, or of the geopotential, or rows first (src/client/File/Netcdf.cpp:705-732). -/
def altitudeRowsFirst (f : NcFile K) (L : NcLayout) (latVar : NcVar K) : Bool :=
  match (if 2 ≤ latVar.dims.length then some latVar else f.var "surface_geopotential".toList) with
  | some v => rowsFirst L v.dims
  | none => true

/-- `defineAltitude` (src/client/File/Netcdf.cpp:704-748). A variable cannot be defined with a dimension that does not exist. The values of a new variable are
the default for missing ones. -/
def defineAltitude (f : NcFile K) (L : NcLayout) (latVar : NcVar K) : Res (NcVar K) :=
  match L.y, L.x with
  | some y, some x => do
    let nY ← f.dimSize y
    let nX ← f.dimSize x
    ok ⟨"altitude".toList, if altitudeRowsFirst f L latVar then [y, x] else [x, y], List.replicate (nY * nX) ncFillFloat, none⟩
  | _, _ => error

/-- `count` (src/client/File/Netcdf.cpp:763-793). -/
def altitudeCount (L : NcLayout) (nY nX d : Nat) : Nat :=
  match L.grid.role d with
  | .y => nY
  | .x => nX
  | _ => 1

/-- `writeAltitude` (src/client/File/Netcdf.cpp:750-814). The array `values` is not initialised; writing beyond its end is undefined. -/
def writeAltitude (f : NcFile K) (L : NcLayout) (nY nX : Nat) (elevs : List (List (Fl K))) (v : NcVar K) : Res (NcVar K) :=
  if v.dims.length ≠ [L.y, L.x].reduceOption.length then error
  else do
    let count := v.dims.map (altitudeCount L nY nX)
    let yFirst := decide (posInt (rolePos L.grid .y 0 v.dims none) < posInt (rolePos L.grid .x 0 v.dims none))
    let data ← foldM (fun (data : List (Option (Fl K))) (p : Nat × Nat) => do
        let e ← vget2 elevs p.1 p.2
        vset data (if yFirst then p.1 * nX + p.2 else p.2 * nY + p.1 : Nat) (some (if isValid v.missing && !isValid e then v.missing else e)))
      (List.replicate count.prod none) ((List.range nY).flatMap fun i => (List.range nX).map fun j => (i, j))
    let sizes ← mapM f.dimSize v.dims
    let values ← ncPutVara sizes (v.dims.map fun _ => 0) count data v.values
    ok { v with values := values }

end Gridpp.Client
