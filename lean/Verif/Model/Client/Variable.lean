import Verif.Model.Client.Options
import Verif.Model.Client.Util

/-! # Variables of a file (src/client/Variable.cpp) -/

namespace Gridpp.Client
open Fl hiding MV isValid
open Res

variable {K : Type} [Field K] [LinearOrder K] [IsStrictOrderedRing K]

/-- Class `Variable` (src/client/Variable.h:46-51). -/
structure Variable (K : Type) where
  name : Str
  units : Str
  standardName : Str
  min : Fl K
  max : Fl K
  level : Int

/-- How `operator>>` reads a number from a text: `float` (with the value the variable had before, which is kept when the stream is at its end
already) and `int`. The values themselves are not modelled. -/
class NumReader (K : Type) where
  readFloat : Str → Fl K → Fl K
  readInt : Str → Int → Int

/-- `Options::getValue` for `T = float` (src/client/Options.h:49-61). -/
def getFloat [NumReader K] (o : Options) (key : Str) (old : Fl K) : Options × Bool × Fl K :=
  match o.pairs.find? (fun p => p.1 = key) with
  | some p => ({ o with accessed := key :: o.accessed }, true, NumReader.readFloat p.2 old)
  | none => (o, false, old)

/-- `Options::getValue` for `T = int` (src/client/Options.h:49-61). -/
def getInt (K : Type) [NumReader K] (o : Options) (key : Str) (old : Int) : Options × Bool × Int :=
  match o.pairs.find? (fun p => p.1 = key) with
  | some p => ({ o with accessed := key :: o.accessed }, true, NumReader.readInt K p.2 old)
  | none => (o, false, old)

/-- `Variable::Variable(iOptions)` (src/client/Variable.cpp:23-37); also the options after the call and the value of `check` (which only
gives a warning). -/
def Variable.ofOptions [NumReader K] (o : Options) : Res (Variable K × Options × Bool) := do
  let r ← getRequiredValue o "name".toList []
  let s := getValue r.1 "standardName".toList []
  let u := getValue s.1 "units".toList []
  let a := getFloat u.1 "min".toList (MV : Fl K)
  let b := getFloat a.1 "max".toList (MV : Fl K)
  let l := getInt K b.1 "level".toList (-999)
  ok (⟨r.2, u.2.2, s.2.2, a.2.2, b.2.2, l.2.2⟩, l.1, checkOptions l.1)

/-- `Variable::add` (src/client/Variable.cpp:81-97). `junk` is what the uninitialised `float min` and `float max` hold. The second number is
read from the key `min` too. `value` (one string for both texts) begins empty; the standard name would keep the units if its text were
blank. -/
def Variable.add [NumReader K] (v : Variable K) (o : Options) (junk junk' : Fl K) : Variable K × Options :=
  let u := getValue o "units".toList []
  let v1 := if u.2.1 then { v with units := u.2.2 } else v
  let s := getValue u.1 "standardName".toList u.2.2
  let v2 := if s.2.1 then { v1 with standardName := s.2.2 } else v1
  let a := getFloat s.1 "min".toList junk
  let v3 := if a.2.1 then { v2 with min := a.2.2 } else v2
  let b := getFloat a.1 "min".toList junk'
  let v4 := if b.2.1 then { v3 with max := b.2.2 } else v3
  (v4, b.1)

/-- `Variable::operator==` (src/client/Variable.cpp:103-105). -/
def Variable.same (a b : Variable K) : Bool := a.name = b.name

end Gridpp.Client
