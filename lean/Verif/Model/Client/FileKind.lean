import Verif.Model.Client.FileNetcdfOpen
import Verif.Model.Client.Options

/-!
# src/client/File/File.cpp: which kind of file is opened

The warnings are left out. What is on disk is nothing, a file of the NetCDF library, or something else.
-/

set_option linter.unusedSectionVars false

namespace Gridpp.Client
open Fl Res

variable {K : Type}

/-- What is on disk under a name; `nc_open` succeeds for the second case only. -/
inductive DiskContent (K : Type) where
  | nothing
  | netcdf (f : NcFile K)
  | other

/-- The classes of files (src/client/File/File.cpp:42-53). -/
inductive FileKind where
  | netcdf
  | point
  | text
  | norcomQnh
  deriving DecidableEq, Repr

/-- `FileNetcdf::isValid` (src/client/File/Netcdf.cpp:526-547). -/
def netcdfIsValid (o : Options) : DiskContent K → Bool
  | .netcdf f =>
    ((f.var "lat".toList).isSome || (f.var "latitude".toList).isSome || hasValue o "latVar".toList) &&
      ((f.var "lon".toList).isSome || (f.var "longitude".toList).isSome || hasValue o "lonVar".toList)
  | _ => false

/-- The type as text (src/client/File/File.cpp:23-29). -/
def fileType (o : Options) (d : DiskContent K) : Str :=
  let r := getValue o "type".toList []
  if !r.2.1 then if netcdfIsValid o d then "netcdf".toList else [] else r.2.2

/-- `File::getScheme` (src/client/File/File.cpp:19-57): the kind of file that is made, `none` if the function returns `NULL`. The constructors are left
out. -/
def fileKind (o : Options) (d : DiskContent K) : Res (Option FileKind) :=
  let type := fileType o d
  if type = [] then ok none
  else if type = "netcdf".toList then ok (some .netcdf)
  else if type = "point".toList then ok (some .point)
  else if type = "text".toList then ok (some .text)
  else if type = "norcomQnh".toList then ok (some .norcomQnh)
  else error

/-- One option of a NetCDF file (src/client/File/Netcdf.cpp:26-97). -/
def ncOption (o : Options) (key : Str) : Option Str :=
  let r := getValue o key []
  if r.2.1 then some r.2.2 else none

/-- The options of a NetCDF file (src/client/File/Netcdf.cpp:25-97). -/
def ncOptions (o : Options) : NcFileOptions where
  latVar := ncOption o "latVar".toList
  lonVar := ncOption o "lonVar".toList
  timeVar := ncOption o "timeVar".toList
  ensDim := ncOption o "ensDim".toList
  yDim := ncOption o "yDim".toList
  xDim := ncOption o "xDim".toList
  timeDim := ncOption o "timeDim".toList
  elevVar := ncOption o "elevVar".toList
  lafVar := ncOption o "lafVar".toList

end Gridpp.Client
