import Verif.Base.Fl
import Verif.Base.Res
import Verif.Model.Fill

/-!
# The command line client (src/client): missing values and class Field

The client is compiled against its own helpers (src/client/Util.cpp), not against the library in src/api. Its missing
value is the number -999, so a computed value that happens to be -999 is taken to be missing.
-/

set_option linter.unusedSectionVars false

namespace Gridpp.Client
open Fl Res

variable {K : Type} [Field K] [LinearOrder K]

/-- `Util::MV` (src/client/Util.cpp:36). -/
def MV : Fl K := fin (-999)

/-- `Util::isValid` (src/client/Util.h:42-44). -/
def isValid : Fl K → Bool
  | fin q => decide (q ≠ -999)
  | _ => false

/-- `Util::error` (src/client/Util.cpp:40-57): prints a message and calls `abort()`. -/
def error {α : Type} : Res α := .abort

/-- Class `Field` (src/client/Field.h:12-66): a three dimensional array in a flat vector. -/
structure FieldC (K : Type) where
  values : List (Fl K)
  nY : Nat
  nX : Nat
  nE : Nat
  deriving DecidableEq

namespace FieldC

/-- Constructor (src/client/Field.cpp:3-14); the sizes are `int`. -/
def new (nY nX nE : Int) (fill : Fl K) : Res (FieldC K) :=
  if isValid (Fl.ofInt nY : Fl K) && isValid (Fl.ofInt nX : Fl K) && isValid (Fl.ofInt nE : Fl K) &&
      decide (0 ≤ nY) && decide (0 ≤ nX) && decide (0 ≤ nE) then
    ok ⟨List.replicate (nY * nX * nE).toNat fill, nY.toNat, nX.toNat, nE.toNat⟩
  else error

/-- `Field::getIndex` (src/client/Field.h:58-63), with its `assert`. Arguments are `unsigned`. -/
def getIndex (f : FieldC K) (y x e : Nat) : Res Nat := do
  assert (decide (y < f.nY) && decide (x < f.nX) && decide (e < f.nE))
  ok (e + x * f.nE + y * f.nX * f.nE)

/-- `field(y, x, e)` read (src/client/Field.h:28-31). -/
def get (f : FieldC K) (y x e : Nat) : Res (Fl K) := do
  let i ← f.getIndex y x e
  vget f.values i

/-- `field(y, x, e) = v` (src/client/Field.h:24-27). -/
def set (f : FieldC K) (y x e : Nat) (v : Fl K) : Res (FieldC K) := do
  let i ← f.getIndex y x e
  let values ← vset f.values i v
  ok { f with values := values }

/-- `field(y, x)` (src/client/Field.cpp:16-19): a copy of the members. `mNEns-1` is converted to `unsigned`, so that
with no members both indices fail their `assert`. -/
def ens (f : FieldC K) (y x : Nat) : Res (List (Fl K)) := do
  let i0 ← f.getIndex y x 0
  let i1 ← f.getIndex y x (f.nE - 1)
  -- the range constructor; both ends are inside the vector
  if i0 ≤ i1 + 1 ∧ i1 + 1 ≤ f.values.length then ok ((f.values.drop i0).take (i1 + 1 - i0)) else .ub

/-- `Field::operator==` (src/client/Field.cpp:31-33): compares the flat vectors only. -/
def eqv (f g : FieldC K) : Bool :=
  decide (f.values.length = g.values.length) && (f.values.zip g.values).all fun p => p.1.feq p.2

/-- The loops `for(y < nY) for(x < nX)` of the calibrators over a field `f` that is changed in the loop; `Y`, `X` are
the sizes given by the file. The outer loop is an OpenMP loop whose iterations touch different cells. -/
def forCells (Y X : Nat) (body : FieldC K → Nat → Nat → Res (FieldC K)) (f : FieldC K) : Res (FieldC K) :=
  foldM (fun f y => foldM (fun f x => body f y x) f (List.range X)) f (List.range Y)

/-- The loops `for(y < nY) for(x < nX) for(e < nEns)` of the calibrators. -/
def forAll (Y X E : Nat) (body : FieldC K → Nat → Nat → Nat → Res (FieldC K)) (f : FieldC K) : Res (FieldC K) :=
  forCells Y X (fun f y x => foldM (fun f e => body f y x e) f (List.range E)) f

end FieldC

end Gridpp.Client
