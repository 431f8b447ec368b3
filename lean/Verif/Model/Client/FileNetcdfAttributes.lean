import Verif.Base.Res
import Verif.Model.Client.Options

/-!
# src/client/File/Netcdf.cpp: global attributes

The attributes are a list of names and texts. A text may contain the character with the number 0, which ends it when it is used as a C string.
The array `char value[len+1]` is on the stack; that the stack may be too small for it is not modelled.
-/

namespace Gridpp.Client
open Res

/-- The attributes of a file, or of a variable. -/
abbrev Atts := List (Str × Str)

/-- `nc_inq_attid`, `nc_inq_attlen` and `nc_get_att_text`. -/
def Atts.get (a : Atts) (name : Str) : Option Str := (a.find? fun p => p.1 = name).map Prod.snd

/-- `nc_put_att_text`, in `setAttribute` and `setGlobalAttribute` (src/client/File/Netcdf.cpp:978-994): an attribute that is there is replaced. -/
def Atts.put (a : Atts) (name value : Str) : Atts :=
  if a.any fun p => p.1 = name then a.map fun p => if p.1 = name then (name, value) else p else a ++ [(name, value)]

/-- What is left of a text that is used as a C string. -/
def cString (s : Str) : Str := s.takeWhile fun c => c ≠ Char.ofNat 0

/-- `mMaxAttributeLength` (src/client/File/Netcdf.h:108). -/
def maxAttributeLength : Nat := 100000000

/-- `appendGlobalAttribute` (src/client/File/Netcdf.cpp:995-1021). -/
def appendGlobalAttribute (a : Atts) (name value : Str) : Atts :=
  match a.get name with
  | some old => a.put name (if maxAttributeLength < old.length then value else cString old ++ '\n' :: value)
  | none => a.put name value

/-- `prependGlobalAttribute` (src/client/File/Netcdf.cpp:1023-1050). -/
def prependGlobalAttribute (a : Atts) (name value : Str) : Atts :=
  match a.get name with
  | some old => a.put name (if maxAttributeLength < old.length then value else value ++ '\n' :: cString old)
  | none => a.put name value

/-- `getAttribute` and `getGlobalAttribute` (src/client/File/Netcdf.cpp:1052-1109). -/
def getGlobalAttribute (a : Atts) (name : Str) : Str :=
  match a.get name with
  | some v => if maxAttributeLength < v.length then [] else cString v
  | none => []

/-- `defineGlobalAttributes` (src/client/File/Netcdf.cpp:1180-1186). `stamp` is the time. -/
def defineGlobalAttributes (a : Atts) (stamp message : Str) : Atts :=
  let a := if getGlobalAttribute a "Conventions".toList ≠ [] then a.put "Conventions".toList "CF-1.0".toList else a
  prependGlobalAttribute a "history".toList (stamp ++ ": gridpp ".toList ++ message)

end Gridpp.Client
