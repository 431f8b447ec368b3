import Verif.Model.Client.Field

/-!
# src/client/File/File.cpp: the fields of a file

Fields are handed out as shared pointers; here a pointer is a place in a list of fields (`heap`) which is never freed.
-/

set_option linter.unusedSectionVars false

namespace Gridpp.Client
open Fl Res

variable {K : Type} [Field K] [LinearOrder K]

/-- What does not change: the numbers of times, rows, columns and members, and what `hasVariableCore` and `getFieldCore` of the subclass
return. Times, sizes and the data on disk do not change while fields are in use (in the code `setTimes` could). -/
structure FileData (K : Type) where
  nT : Nat
  nY : Nat
  nX : Nat
  nE : Nat
  core : String → Option (Nat → FieldC K)

/-- `mFields` (src/client/File/File.h:107), with the fields themselves, and the names of `mVariables` (src/client/File/File.h:103).
`std::map` is a list in any order; variables are compared by name only (src/client/Variable.cpp:99-105). -/
structure FileState (K : Type) where
  heap : List (FieldC K)
  fields : List (String × List (Option Nat))
  vars : List String
  deriving DecidableEq

/-- `mFields.find(iVariable)`. -/
def FileState.find (s : FileState K) (v : String) : Option (List (Option Nat)) := (s.fields.find? fun p => p.1 = v).map Prod.snd

/-- `mFields[iVariable] = l`. -/
def FileState.store (s : FileState K) (v : String) (l : List (Option Nat)) : FileState K :=
  { s with fields := (v, l) :: s.fields.filter fun p => p.1 ≠ v }

/-- `if(!hasDefinedVariable(iVariable)) mVariables.push_back(iVariable)` (src/client/File/File.cpp:134-135, 161-162, 375-382). -/
def FileState.define (s : FileState K) (v : String) : FileState K := if v ∈ s.vars then s else { s with vars := s.vars ++ [v] }

/-- A new field. -/
def FileState.alloc (s : FileState K) (f : FieldC K) : FileState K := { s with heap := s.heap ++ [f] }

/-- `File::addField` (src/client/File/File.cpp:156-165) with the pointer `p`. -/
def addField (d : FileData K) (s : FileState K) (p : Nat) (v : String) (t : Int) : Res (FileState K) := do
  let l ← vset ((s.find v).getD (List.replicate d.nT none)) t (some p)
  ok ((s.define v).store v l)

/-- `addField` with a new field. -/
def addNew (d : FileData K) (s : FileState K) (f : FieldC K) (v : String) (t : Int) : Res (FileState K) :=
  addField d (s.alloc f) s.heap.length v t

/-- `for(t < getNumTime()) addField(getEmptyField(), iVariable, t)` (src/client/File/File.cpp:113-116, 121-124, 188-190). -/
def addMissing (d : FileData K) (s : FileState K) (v : String) : Res (FileState K) :=
  foldM (fun s (t : Nat) => do
    let f ← FieldC.new d.nY d.nX d.nE MV
    addNew d s f v t) s (List.range d.nT)

/-- Where there is no field: it is read, or all times are made missing (src/client/File/File.cpp:107-126). -/
def fillField (d : FileData K) (s : FileState K) (v : String) (t : Int) (skip : Bool) : Res (FileState K) :=
  match d.core v with
  | some disk => if skip then addMissing d s v else addNew d s (disk t.toNat) v t
  | none => addMissing d s v

/-- The state before a field may have to be read, and whether it has to be (src/client/File/File.cpp:81-105). `size() <= iTime` compares
unsigned numbers, `getNumTime() <= iTime` signed ones. -/
def allocate (d : FileData K) (s : FileState K) (v : String) (t : Int) : Res (FileState K × Bool) :=
  match s.find v with
  | some l => if t < 0 ∨ (l.length : Int) ≤ t then error else ok (s, decide (l[t.toNat]? = some none))
  | none => if (d.nT : Int) ≤ t then error else ok (s.store v (List.replicate d.nT none), true)

/-- `File::getField` (src/client/File/File.cpp:79-137): the new state and the pointer, `none` if it is `NULL`. -/
def getField (d : FileData K) (s : FileState K) (v : String) (t : Int) (skip : Bool) : Res (FileState K × Option Nat) := do
  let a ← allocate d s v t
  let s ← (if a.2 then fillField d a.1 v t skip else ok a.1)
  let l := (s.find v).getD []
  if t < 0 ∨ (l.length : Int) ≤ t then error
  else do
    let p ← vget l t
    ok (s.define v, p)

/-- `File::hasVariable` (src/client/File/File.cpp:196-204). -/
def hasVariable (d : FileData K) (s : FileState K) (v : String) : Bool := (d.core v).isSome || (s.find v).isSome

/-- `File::initNewVariable` (src/client/File/File.cpp:186-192). -/
def initNewVariable (d : FileData K) (s : FileState K) (v : String) : Res (FileState K) :=
  if hasVariable d s v then ok s else addMissing d s v

/-- `File::clear` (src/client/File/File.cpp:206-208). -/
def clearFields (s : FileState K) : FileState K := { s with fields := [] }

/-- The variable meant by a name (src/client/File/File.cpp:60-78); `aliases` is `mVariableAliases`. -/
def resolveName (aliases : List (String × String)) (s : FileState K) (n : String) : String :=
  if n ∈ s.vars then n else ((aliases.find? fun p => p.1 = n).map Prod.snd).getD n

/-- What a program does with the fields of a file: read one, change one through the pointer, replace one, create a variable, clear. -/
inductive FileOp (K : Type) where
  | read (v : String) (t : Nat)
  | modify (v : String) (t : Nat) (g : FieldC K)
  | replace (v : String) (t : Nat) (g : FieldC K)
  | init (v : String)
  | clear

/-- One operation, and the field that was read. -/
def fileStep (d : FileData K) (s : FileState K) : FileOp K → Res (FileState K × Option (FieldC K))
  | .read v t => do
    let r ← getField d s v t false
    match r.2 with
    | none => .ub
    | some p => do
      let f ← vget r.1.heap p
      ok (r.1, some f)
  | .modify v t g => do
    let r ← getField d s v t false
    match r.2 with
    | none => .ub
    | some p => do
      let h ← vset r.1.heap p g
      ok ({ r.1 with heap := h }, none)
  | .replace v t g => do
    let s' ← addNew d s g v t
    ok (s', none)
  | .init v => do
    let s' ← initNewVariable d s v
    ok (s', none)
  | .clear => ok (clearFields s, none)

/-- A sequence of operations and the fields that were read. -/
def fileRun (d : FileData K) (s : FileState K) : List (FileOp K) → Res (FileState K × List (FieldC K))
  | [] => ok (s, [])
  | op :: ops => do
    let r ← fileStep d s op
    let q ← fileRun d r.1 ops
    ok (q.1, r.2.toList ++ q.2)

/-- A file that has just been opened: subclasses list their variables, no field has been read. -/
def FileState.start (vars : List String) : FileState K := ⟨[], [], vars⟩

end Gridpp.Client
