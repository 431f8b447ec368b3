import Verif.Model.Client.FileNetcdf
import Verif.Spec.Netcdf
import Mathlib.Data.List.ReduceOption

/-! # What is meant by the field of a NetCDF variable at a time -/

namespace Gridpp.Spec
open Gridpp.Client

variable {K : Type}

/-- The dimensions with a meaning are different from each other. -/
def DifferentDims (L : NcLayout) : Prop := [L.time, L.ens, L.y, L.x].reduceOption.Nodup

/-- How many values a variable has along a dimension: 1 if it does not have the dimension. -/
def extent (f : NcFile K) (v : NcVar K) : Option Nat → Nat
  | some d => if d ∈ v.dims then dimLength f d else 1
  | none => 1

/-- The dimension has no meaning. -/
def OtherDim (L : NcLayout) (d : Nat) : Prop := some d ∉ [L.time, L.ens, L.y, L.x]

/-- The index in a dimension without a meaning: the level if there is one and the dimension has more than one value. -/
def levelIndex (f : NcFile K) (level : Int) (d : Nat) : Nat := if level = -999 then 0 else if dimLength f d ≤ 1 then 0 else level.toNat

/-- Where the value of a time, a point and a member is; `other` is for the dimensions without a meaning. -/
def fieldPos (L : NcLayout) (other : Nat → Nat) (t y x e d : Nat) : Nat :=
  if some d = L.time then t else if some d = L.ens then e else if some d = L.y then y else if some d = L.x then x else other d

/-- The level can be had: the dimensions without a meaning are not empty, and there is no level, or they have only one value, or they have the level. -/
def LevelFits (f : NcFile K) (L : NcLayout) (v : NcVar K) (level : Int) : Prop :=
  ∀ d ∈ v.dims, OtherDim L d → 0 < dimLength f d ∧ (level = -999 ∨ dimLength f d = 1 ∨ 0 ≤ level ∧ level < dimLength f d)

/-- The time is one of those of the variable. -/
def TimeFits (f : NcFile K) (L : NcLayout) (v : NcVar K) (t : Nat) : Prop := ∀ d ∈ v.dims, some d = L.time → t < dimLength f d

/-- What a packed value means: missing if it is the value for that, otherwise the number that was packed. -/
def packedMeaning [Field K] [LinearOrder K] (fill scale offset x : Fl K) : Fl K := if x ≠ .nan ∧ x = fill then .fin (-999) else scale * x + offset

/-- How a value is to be packed: anything that is not a number, and -999, by the value for missing. -/
def packedForm [Field K] [LinearOrder K] (fill scale offset : Fl K) : Fl K → Fl K
  | .fin q => if q = -999 then fill else (.fin q - offset) / scale
  | _ => fill

/-- What is left of a value: anything that is not a number is missing. -/
def numberOrMissing [Field K] : Fl K → Fl K
  | .fin q => .fin q
  | _ => .fin (-999)

/-- The values for the dimensions of the variable are in range. -/
def IndexInRange (f : NcFile K) (v : NcVar K) (pos : Nat → Nat) : Prop := ∀ d ∈ v.dims, pos d < dimLength f d

end Gridpp.Spec
