import Verif.Model.Client.FileKind

/-! # Kinds of files -/

namespace Gridpp.Spec
open Client

variable {K : Type}

/-- The types in the help text (src/client/File/Netcdf.cpp:1311, Point.cpp:157, NorcomQnh.cpp:154, Text.cpp:154). -/
def documentedTypes : List (String × FileKind) := [("netcdf", .netcdf), ("point", .point), ("norcomQnh", .norcomQnh), ("text", .text)]

/-- The file has a variable with one of the names. -/
def HasVariable (f : NcFile K) (names : List String) : Prop := ∃ v ∈ f.vars, ∃ n ∈ names, v.name = n.toList

/-- The option is given. -/
def Given (o : Options) (key : String) : Prop := ∃ v, (key.toList, v) ∈ o.pairs

end Gridpp.Spec
