import Verif.Model.QuantileFast
import Mathlib.Logic.Function.Basic
import Mathlib.Data.Set.Basic

/-!
# OpenMP parallel regions

A parallel region is a family of programs (one per iteration, or one per thread), each a list of atomic steps on a
shared store. A run executes the next step of some unfinished program until all are finished; this allows every
schedule, number of threads and interleaving. Simplification: steps are atomic and sequentially consistent, so the
additional behaviours C++ allows for a data race are not modelled.
-/

set_option linter.unusedSectionVars false

namespace Gridpp.Omp

variable {ι Loc V : Type} [DecidableEq ι]

/-- Contents of the shared (and iteration-private) memory cells. -/
abbrev Store (Loc V : Type) := Loc → V

/-- An atomic step. -/
abbrev Step (Loc V : Type) := Store Loc V → Store Loc V

/-- Sequential run of one program. -/
def runSeq (p : List (Step Loc V)) (s : Store Loc V) : Store Loc V := p.foldl (fun s f => f s) s

/-- An interleaved run of the programs `p` from store `s` to a final store. -/
inductive Exec : (ι → List (Step Loc V)) → Store Loc V → Store Loc V → Prop
  | done {p : ι → List (Step Loc V)} {s : Store Loc V} (h : ∀ i, p i = []) : Exec p s s
  | step {p : ι → List (Step Loc V)} {s s' : Store Loc V} (i : ι) (f : Step Loc V) (t : List (Step Loc V))
      (h : p i = f :: t) (rest : Exec (Function.update p i t) (f s) s') : Exec p s s'

/-- Memory of the second parallel loop of `neighbourhood_quantile_fast` (neighbourhood.cpp:365-404): the shared
`curr_quantile`, the values an iteration has read from it so far, and `output`. -/
inductive QLoc where
  | curr
  | read1 (y x : Nat)
  | read2 (y x : Nat)
  | out (y x : Nat)
  deriving DecidableEq

/-- Body of the loop at cell `(y, x)`: write `curr_quantile` (line 370-373), read it three times (396, 398, 401) and
write the output. `F y x q1 q2 q3` is the value written. -/
def quantileCell {V : Type} (level : Nat → Nat → V) (F : Nat → Nat → V → V → V → V) (y x : Nat) : List (Step QLoc V) :=
  [fun s => Function.update s .curr (level y x),
   fun s => Function.update s (.read1 y x) (s .curr),
   fun s => Function.update s (.read2 y x) (s .curr),
   fun s => Function.update s (.out y x) (F y x (s (.read1 y x)) (s (.read2 y x)) (s .curr))]

/-- The iteration for row `y` of the parallel loop (neighbourhood.cpp:367-404). -/
def quantileRow {V : Type} (nX : Nat) (level : Nat → Nat → V) (F : Nat → Nat → V → V → V → V) (y : Nat) : List (Step QLoc V) :=
  (List.range nX).flatMap (quantileCell level F y)

/-- The whole loop, for `nY` rows. -/
def quantileLoop {V : Type} (nY nX : Nat) (level : Nat → Nat → V) (F : Nat → Nat → V → V → V → V) (y : Nat) : List (Step QLoc V) :=
  if y < nY then quantileRow nX level F y else []

/-- A work-sharing loop `#pragma omp parallel for ... out[k] = f(k)` where `f` reads only data that no iteration
writes; e.g. nearest.cpp:20-29, bilinear.cpp, count.cpp, distance.cpp, fill.cpp. -/
def forLoop {V : Type} (n : Nat) (f : Nat → V) (k : Nat) : List (Step Nat V) :=
  if k < n then [fun s => Function.update s k (f k)] else []

/-- A region `#pragma omp parallel` without `for` (gridding.cpp, Points version): every one of the `T` threads runs
the whole loop on the same shared output. -/
def replicatedLoop {V : Type} (T n : Nat) (f : Nat → V) (thread : Nat) : List (Step Nat V) :=
  if thread < T then (List.range n).map fun k => fun s => Function.update s k (f k) else []

end Gridpp.Omp
