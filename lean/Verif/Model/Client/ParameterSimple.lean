import Verif.Model.Client.ParameterFile

/-! # src/client/ParameterFile/Simple.cpp and src/client/Parameters.cpp -/

set_option linter.unusedSectionVars false

namespace Gridpp.Client
open Fl Res

variable {K : Type} [Field K] [LinearOrder K]

namespace Pars

/-- `Parameters::operator[]` (src/client/Parameters.cpp:20-37), both versions. The index is an `unsigned int`: an `int` that is given is
taken modulo 2³². The test `i < 0` never holds. -/
def index (p : Pars K) (i : Int) : Res (Fl K) :=
  let i := i % 4294967296
  if (p.length : Int) ≤ i then error else vget p i

/-- `parameters[i] = v` (src/client/Parameters.cpp:20-28). -/
def assign (p : Pars K) (i : Int) (v : Fl K) : Res (Pars K) :=
  let i := i % 4294967296
  if (p.length : Int) ≤ i then error else vset p i v

/-- `Parameters::isValid` (src/client/Parameters.cpp:42-48). -/
def valid : Pars K → Bool
  | [] => true
  | x :: p => if !isValid x then false else valid p

end Pars

namespace ParFile

/-- The constructor of `ParameterFileSimple` (src/client/ParameterFile/Simple.cpp:9-14). -/
def simple (sort : Bool → List (Site K) → List (Site K)) (p : Pars K) : Res (ParFile K) := do
  let f ← (empty false).setParameters p 0 nowhere
  f.recomputeTree sort

/-- `ParameterFileSimple::getTimes` (src/client/ParameterFile/Simple.cpp:16-19). -/
def simpleTimes (_ : ParFile K) : List Nat := [0]

/-- `ParameterFile::getCacheSize` (src/client/ParameterFile/ParameterFile.cpp:271-280). -/
def getCacheSize (f : ParFile K) : Nat := f.pars.foldl (fun total e => e.2.foldl (fun total _ => total + 1) total) 0

end ParFile

end Gridpp.Client
