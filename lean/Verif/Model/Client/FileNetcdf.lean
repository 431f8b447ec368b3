import Verif.Model.Client.Netcdf
import Verif.Model.Client.ParameterNetcdf

/-!
# src/client/File/Netcdf.cpp: forecasts in NetCDF files

The library is not in the repository: `nc_get_vara_float` and `nc_put_vara_float` read and write the part of a variable whose indices in each dimension are
from `start` up to `start + count`, the last dimension changing fastest, and fail if this is not within the sizes of the dimensions.
-/

set_option linter.unusedSectionVars false

namespace Gridpp.Client
open Fl Res

variable {K : Type} [Field K] [LinearOrder K]

/-- All indices that are below the sizes, the last one changing fastest. -/
def ncTuples : List Nat → List (List Nat)
  | [] => [[]]
  | n :: ns => (List.range n).flatMap fun i => (ncTuples ns).map (i :: ·)

/-- The number of an element, from the sizes and the indices. -/
def ncNumber (sizes indices : List Nat) : Nat := (sizes.zip indices).foldl (fun n p => n * p.1 + p.2) 0

/-- The part is within the variable. A negative start becomes a very large number. -/
def ncFits (sizes : List Nat) (start : List Int) (count : List Nat) : Bool :=
  decide (∀ p ∈ sizes.zip (start.zip count), 0 ≤ p.2.1 ∧ p.2.1 + p.2.2 ≤ p.1)

/-- `nc_get_vara_float`: the values; `none` if it fails. -/
def ncGetVara (sizes : List Nat) (start : List Int) (count : List Nat) (values : List (Fl K)) : Option (List (Fl K)) :=
  if ncFits sizes start count then
    some ((ncTuples count).map fun c => values.getD (ncNumber sizes (List.zipWith (fun (s : Int) (i : Nat) => s.toNat + i) start c)) .nan)
  else none

/-- The value with the indices `c` after `nc_put_vara_float`. -/
def ncPutEntry (sizes start count : List Nat) (data : List (Option (Fl K))) (values : List (Fl K)) (c : List Nat) : Res (Fl K) :=
  if ∀ p ∈ c.zip (start.zip count), p.2.1 ≤ p.1 ∧ p.1 < p.2.1 + p.2.2 then
    match data[ncNumber count (List.zipWith (fun i s : Nat => i - s) c start)]? with
    | some (some x) => ok x
    | _ => .ub
  else vget values (ncNumber sizes c)

/-- `nc_put_vara_float`: the values of the variable afterwards. The data are read from an array in which elements that have not been written are `none`. -/
def ncPutVara (sizes : List Nat) (start count : List Nat) (data : List (Option (Fl K))) (values : List (Fl K)) : Res (List (Fl K)) :=
  if ncFits sizes (start.map fun n : Nat => (n : Int)) count then
    mapM (ncPutEntry sizes start count data values) (ncTuples sizes)
  else error

/-- The numbers of the dimensions that have a meaning (src/client/File/Netcdf.h:59-62): `none` for `Util::MV`. -/
structure NcLayout where
  time : Option Nat
  ens : Option Nat
  y : Option Nat
  x : Option Nat
  deriving DecidableEq

/-- What a dimension is for. -/
inductive NcRole where
  | time
  | ens
  | y
  | x
  | other
  deriving DecidableEq

/-- The order in which dimensions are compared (src/client/File/Netcdf.cpp:246-261, 454-468). -/
def NcLayout.role (L : NcLayout) (d : Nat) : NcRole :=
  if some d = L.time then .time else if some d = L.ens then .ens else if some d = L.y then .y else if some d = L.x then .x else .other

/-- `timePos`, `ensPos`, `yPos` and `xPos`: the last dimension of the variable with this meaning. -/
def rolePos (L : NcLayout) (r : NcRole) : Nat → List Nat → Option Nat → Option Nat
  | _, [], s => s
  | k, d :: ds, s => rolePos L r (k + 1) ds (if L.role d = r then some k else s)

/-- The index in a dimension without a meaning (src/client/File/Netcdf.cpp:261-279). The level is an `int`, -999 if there is none. -/
def levelStart (level : Int) (size : Nat) : Res Int :=
  if level ≠ -999 then if 1 < size then if (size : Int) ≤ level then error else ok level else ok 0 else ok 0

/-- `start` in `getFieldCore` (src/client/File/Netcdf.cpp:242-280). -/
def slabStart (f : NcFile K) (L : NcLayout) (t : Nat) (level : Int) (d : Nat) : Res Int :=
  match L.role d with
  | .time => ok t
  | .other => do
    let n ← f.dimSize d
    levelStart level n
  | _ => ok 0

/-- `count` (src/client/File/Netcdf.cpp:242-280, 451-469). -/
def slabCount (f : NcFile K) (L : NcLayout) (d : Nat) : Res Nat :=
  match L.role d with
  | .time => ok 1
  | .other => ok 1
  | _ => f.dimSize d

/-- `if(Util::isValid(pos)) indices[pos] = i`. -/
def setPos (l : List Nat) (p : Option Nat) (i : Nat) : List Nat := p.elim l fun k => l.set k i

/-- `indices` in the loops (src/client/File/Netcdf.cpp:310-319, 493-502). In the code the array is kept from one step to the next; every entry that is
not zero is written again before it is used. -/
def slabIndices (L : NcLayout) (dims : List Nat) (y x e : Nat) : List Nat :=
  setPos (setPos (setPos (List.replicate dims.length 0) (rolePos L .ens 0 dims none) e) (rolePos L .y 0 dims none) y) (rolePos L .x 0 dims none) x

/-- `nEns`, `nY`, `nX` (src/client/File/Netcdf.cpp:301-309, 484-492). -/
def posCount (counts : List Nat) (p : Option Nat) : Nat := p.elim 1 fun k => counts.getD k 1

/-- The loops `for(e < nEns) for(y < nY) for(x < nX)` (src/client/File/Netcdf.cpp:311-334, 494-516). -/
def slabCells (nE nY nX : Nat) : List (Nat × Nat × Nat) :=
  (List.range nE).flatMap fun e => (List.range nY).flatMap fun y => (List.range nX).map fun x => (y, x, e)

/-- A value that has been read (src/client/File/Netcdf.cpp:322-329). -/
def unpacked (fill scale offset x : Fl K) : Fl K := if isValid fill && x.feq fill then MV else scale * x + offset

/-- `getFieldCore` (src/client/File/Netcdf.cpp:230-364). `nY`, `nX` and `nE` are those of the file; scale and offset are the attributes of the variable, or
1 and 0; `getIndex` (lines 956-965) is the same as in src/client/ParameterFile/Netcdf.cpp. That the library could not read is not noticed, and the array is then not initialised. -/
def ncField (f : NcFile K) (L : NcLayout) (nY nX nE : Nat) (v : NcVar K) (scale offset : Fl K) (level : Int) (t : Nat) : Res (FieldC K) := do
  let start ← mapM (slabStart f L t level) v.dims
  let count ← mapM (slabCount f L) v.dims
  let sizes ← mapM f.dimSize v.dims
  let values := ncGetVara sizes start count v.values
  let field ← FieldC.new nY nX nE MV
  foldM (fun field (p : Nat × Nat × Nat) => do
      let i ← ncIndex (slabIndices L v.dims p.1 p.2.1 p.2.2) count
      let value ← values.elim .ub fun l => vget l i
      field.set p.1 p.2.1 p.2.2 (unpacked v.missing scale offset value)) field
    (slabCells (posCount count (rolePos L .ens 0 v.dims none)) (posCount count (rolePos L .y 0 v.dims none)) (posCount count (rolePos L .x 0 v.dims none)))

/-- A value that is written (src/client/File/Netcdf.cpp:505-512). -/
def packed (fill scale offset x : Fl K) : Fl K := if isValid fill && !isValid x then fill else (x - offset) / scale

/-- One time of a variable is written (src/client/File/Netcdf.cpp:445-469, 472-519). The array `values`, of the size of a field of the file, is here a new one
for every time; in the code it is kept, and every element that is used has been written again. -/
def ncWriteTime (f : NcFile K) (L : NcLayout) (nY nX nE : Nat) (scale offset : Fl K) (field : FieldC K) (v : NcVar K) (t : Nat) : Res (NcVar K) := do
  let count ← mapM (slabCount f L) v.dims
  let sizes ← mapM f.dimSize v.dims
  let data ← foldM (fun (data : List (Option (Fl K))) (p : Nat × Nat × Nat) => do
      let i ← ncIndex (slabIndices L v.dims p.1 p.2.1 p.2.2) count
      let value ← field.get p.1 p.2.1 p.2.2
      vset data i (some (packed v.missing scale offset value))) (List.replicate (nE * nY * nX) none)
    (slabCells (posCount count (rolePos L .ens 0 v.dims none)) (posCount count (rolePos L .y 0 v.dims none)) (posCount count (rolePos L .x 0 v.dims none)))
  let values ← ncPutVara sizes (setPos (List.replicate v.dims.length 0) (rolePos L .time 0 v.dims none) t) count data v.values
  ok { v with values := values }

/-- All times of a variable that is there (src/client/File/Netcdf.cpp:436-522). A time dimension without a fixed size has been extended by `writeTimes`
before; here it has the size it has then. -/
def ncWriteVar (f : NcFile K) (L : NcLayout) (nY nX nE nT : Nat) (scale offset : Fl K) (fields : Nat → FieldC K) (v : NcVar K) : Res (NcVar K) :=
  foldM (fun v t => ncWriteTime f L nY nX nE scale offset (fields t) v t) v (List.range nT)

end Gridpp.Client
