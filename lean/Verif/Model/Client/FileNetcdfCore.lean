import Verif.Model.Client.FileNetcdfAltitude

/-!
# src/client/File/Netcdf.cpp: a file with forecasts is written

Attributes of variables are left out; those of the file are in `FileNetcdfAttributes.lean`. A dimension without a fixed size has here the size that it has
in the end. The default for missing values is the same number for floats and doubles.
-/

set_option linter.unusedSectionVars false

namespace Gridpp.Client
open Fl Res

variable {K : Type} [Field K] [LinearOrder K]

/-- What is written: sizes of the grid, number of members, times, reference time, elevations (`getElevs`), and for every variable the fields (`getField`) and
its scale and offset (`getScale`, `getOffset`). -/
structure NcOutput (K : Type) where
  nY : Nat
  nX : Nat
  nE : Nat
  times : List (Fl K)
  reference : Fl K
  elevs : List (List (Fl K))
  field : Str → Nat → FieldC K
  scale : Str → Fl K
  offset : Str → Fl K

/-- The file with one more variable. -/
def NcFile.addVar (f : NcFile K) (v : NcVar K) : NcFile K := { f with vars := f.vars ++ [v] }

/-- The file with new values for a variable. -/
def NcFile.setVar (f : NcFile K) (v : NcVar K) : NcFile K := { f with vars := f.vars.map fun w => if w.name = v.name then v else w }

/-- `getVar` (src/client/File/Netcdf.cpp:815-824). -/
def NcFile.getVar (f : NcFile K) (name : Str) : Res (NcVar K) := (f.var name).elim error ok

/-- `nc_def_var`: fails if there is a variable of this name; all values are the default for missing ones. -/
def ncDefVar (f : NcFile K) (name : Str) (dims : List Nat) : Res (NcFile K) :=
  match f.var name with
  | some _ => error
  | none => do
    let sizes ← mapM f.dimSize dims
    ok (f.addVar ⟨name, dims, List.replicate sizes.prod ncFillFloat, none⟩)

/-- `nc_def_dim`: the file and the number of the dimension; fails if there is a dimension of this name. -/
def ncDefDim (f : NcFile K) (name : Str) (size : Nat) : Res (NcFile K × Nat) :=
  match f.dimId name with
  | some _ => error
  | none => ok ({ f with dims := f.dims ++ [(name, size)] }, f.dims.length)

/-- `defineTimes` (src/client/File/Netcdf.cpp:1111-1129). The new dimension has no fixed size; it is extended to the number of times in `writeTimes`. -/
def defineTimes (f : NcFile K) (L : NcLayout) (nT : Nat) : Res (NcFile K × NcLayout) :=
  match f.var "time".toList with
  | some _ => ok (f, L)
  | none =>
    match L.time with
    | some d => do
      let f ← ncDefVar f "time".toList [d]
      ok (f, L)
    | none => do
      let r ← ncDefDim f "time".toList nT
      let f ← ncDefVar r.1 "time".toList [r.2]
      ok (f, { L with time := some r.2 })

/-- `defineEns` (src/client/File/Netcdf.cpp:1130-1135). -/
def defineEns (f : NcFile K) (L : NcLayout) (name : Str) (nE : Nat) : Res (NcFile K × NcLayout) :=
  if L.ens = none ∧ 1 < nE then do
    let r ← ncDefDim f name nE
    ok (r.1, { L with ens := some r.2 })
  else ok (f, L)

/-- `defineReferenceTime` (src/client/File/Netcdf.cpp:1162-1171). -/
def defineReference (f : NcFile K) : Res (NcFile K) :=
  match f.var "forecast_reference_time".toList with
  | some _ => ok f
  | none => ncDefVar f "forecast_reference_time".toList []

/-- A variable that is not there is defined (src/client/File/Netcdf.cpp:391-415). -/
def defineField (L : NcLayout) (f : NcFile K) (name : Str) : Res (NcFile K) :=
  match f.var name with
  | some _ => ok f
  | none => ncDefVar f name [L.time, L.ens, L.y, L.x].reduceOption

/-- A time as it is written (src/client/File/Netcdf.cpp:1147-1150, 1175-1176). -/
def timeForm (t : Fl K) : Fl K := if isValid t then t else ncFillFloat

/-- `writeTimes` (src/client/File/Netcdf.cpp:1136-1161). The number of times is always the size of the list, so the warning never comes. The library is given one index and one size:
it looks beyond them if the variable has more than one dimension. -/
def writeTimes (f : NcFile K) (times : List (Fl K)) : Res (NcFile K) := do
  let v ← f.getVar "time".toList
  match v.dims with
  | [d] => do
    let size ← f.dimSize d
    let values ← ncPutVara [size] [0] [times.length] (times.map fun t => some (timeForm t)) v.values
    ok (f.setVar { v with values := values })
  | [] =>
    match times with
    | t :: _ => ok (f.setVar { v with values := [timeForm t] })
    | [] => .ub
  | _ => .ub

/-- `writeReferenceTime` (src/client/File/Netcdf.cpp:1172-1179). All values of the variable are written, from one number. -/
def writeReference (f : NcFile K) (reference : Fl K) : Res (NcFile K) := do
  let v ← f.getVar "forecast_reference_time".toList
  if v.values.length ≤ 1 then ok (f.setVar { v with values := v.values.map fun _ => timeForm reference })
  else .ub

/-- Some elevation is known (src/client/File/Netcdf.cpp:369-376). -/
def someElevation (elevs : List (List (Fl K))) : Bool := elevs.any fun r => r.any isValid

/-- The values of the variable altitude (src/client/File/Netcdf.cpp:433-435). -/
def writeElevations (L : NcLayout) (out : NcOutput K) (f : NcFile K) : Res (NcFile K) :=
  if someElevation out.elevs then do
    let v ← f.getVar "altitude".toList
    let v' ← writeAltitude f L out.nY out.nX out.elevs v
    ok (f.setVar v')
  else ok f

/-- All times of one variable (src/client/File/Netcdf.cpp:436-522). -/
def writeField (L : NcLayout) (out : NcOutput K) (f : NcFile K) (name : Str) : Res (NcFile K) := do
  let v ← f.getVar name
  let v' ← ncWriteVar f L out.nY out.nX out.nE out.times.length (out.scale name) (out.offset name) (out.field name) v
  ok (f.setVar v')

/-- The variable altitude, if it is needed and not there (src/client/File/Netcdf.cpp:377-379). -/
def defineElevations (f : NcFile K) (L : NcLayout) (latVar : NcVar K) (elevs : List (List (Fl K))) : Res (NcFile K) :=
  if someElevation elevs && (f.var "altitude".toList).isNone then do
    let v ← defineAltitude f L latVar
    ok (f.addVar v)
  else ok f

/-- The dimensions and variables that are not there are defined (src/client/File/Netcdf.cpp:367-428). -/
def defineAll (ensName : Str) (latVar : NcVar K) (L : NcLayout) (out : NcOutput K) (names : List Str) (f : NcFile K) : Res (NcFile K × NcLayout) := do
  let f ← defineElevations f L latVar out.elevs
  let r ← defineTimes f L out.times.length
  let r ← defineEns r.1 r.2 ensName out.nE
  let f ← defineReference r.1
  let f ← foldM (defineField r.2) f names
  ok (f, r.2)

/-- `writeCore` (src/client/File/Netcdf.cpp:366-522): the file and its dimensions afterwards. -/
def writeNetcdfCore (ensName : Str) (latVar : NcVar K) (L : NcLayout) (out : NcOutput K) (names : List Str) (f : NcFile K) : Res (NcFile K × NcLayout) := do
  let r ← defineAll ensName latVar L out names f
  let f ← writeTimes r.1 out.times
  let f ← writeReference f out.reference
  let f ← writeElevations r.2 out f
  let f ← foldM (writeField r.2 out) f names
  ok (f, r.2)

end Gridpp.Client
