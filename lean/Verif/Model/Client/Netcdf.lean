import Verif.Base.Fl
import Verif.Base.Res
import Verif.Model.Client.Field
import Verif.Model.Client.Options

/-!
# NetCDF files as the client sees them

The library is not in the repository. A file is taken to be its dimensions, numbered in order, and its variables, each with the numbers of its dimensions
and all its values, the last dimension changing fastest. All values are floats here: conversions between types, groups, and reading that fails half-way
are left out.
-/

set_option linter.unusedSectionVars false

namespace Gridpp.Client
open Fl Res

variable {K : Type} [Field K] [LinearOrder K]

/-- A variable: `fill` is the attribute `_FillValue`. -/
structure NcVar (K : Type) where
  name : Str
  dims : List Nat
  values : List (Fl K)
  fill : Option (Fl K)
  deriving DecidableEq

/-- A file: names and sizes of the dimensions, and the variables. -/
structure NcFile (K : Type) where
  dims : List (Str × Nat)
  vars : List (NcVar K)
  deriving DecidableEq

/-- `nc_inq_dimid`. -/
def NcFile.dimId (f : NcFile K) (name : Str) : Option Nat := f.dims.findIdx? fun d => d.1 = name

/-- `nc_inq_varid`. -/
def NcFile.var (f : NcFile K) (name : Str) : Option (NcVar K) := f.vars.find? fun v => v.name = name

/-- `nc_inq_dimlen`; a number that is not that of a dimension leaves the result uninitialised. -/
def NcFile.dimSize (f : NcFile K) (d : Nat) : Res Nat :=
  match f.dims[d]? with
  | some p => ok p.2
  | none => .ub

/-- `NC_FILL_FLOAT`, which is 15·2^119. -/
def ncFillFloat : Fl K := fin (15 * 2 ^ 119)

/-- `NetcdfUtil::getMissingValue` (src/client/NetcdfUtil.cpp:4-10). -/
def NcVar.missing (v : NcVar K) : Fl K := v.fill.getD ncFillFloat

/-- `NetcdfUtil::getTotalSize` (src/client/NetcdfUtil.cpp:12-29). -/
def NcFile.totalSize (f : NcFile K) (v : NcVar K) : Res Nat :=
  foldM (fun total d => do
    let n ← f.dimSize d
    ok (total * n)) 1 v.dims

end Gridpp.Client
