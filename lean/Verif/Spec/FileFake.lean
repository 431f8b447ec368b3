import Verif.Model.Client.FileFake

/-! # The grids of a file, as the last one of the right size -/

namespace Gridpp.Spec
open Fl Client

variable {K : Type} [Field K] [LinearOrder K]

/-- The last of the grids that has this size. -/
def LastOfSize (Y X : Nat) (l : List (List (List (Fl K)))) (v : List (List (Fl K))) : Prop :=
  ∃ before after, l = before ++ v :: after ∧ Rect Y X v ∧ ∀ w ∈ after, ¬ Rect Y X w

/-- None of the grids has this size, and all values are missing. -/
def NoneOfSize (Y X : Nat) (l : List (List (List (Fl K)))) (v : List (List (Fl K))) : Prop :=
  (∀ w ∈ l, ¬ Rect Y X w) ∧ Rect Y X v ∧ ∀ r ∈ v, ∀ x ∈ r, x = fin (-999)

/-- The elevations that were given to the file. -/
def elevsGiven : List (GridOp K) → List (List (List (Fl K)))
  | [] => []
  | .elevs v :: t => v :: elevsGiven t
  | .fractions _ :: t => elevsGiven t

/-- The land fractions that were given to the file. -/
def fractionsGiven : List (GridOp K) → List (List (List (Fl K)))
  | [] => []
  | .elevs _ :: t => fractionsGiven t
  | .fractions v :: t => v :: fractionsGiven t

/-- The grid is a rectangle with at least one row. -/
def Regular (v : List (List (Fl K))) : Prop := ∃ Y X, 0 < Y ∧ Rect Y X v

/-- What an operation gives to the file. -/
def opGrid : GridOp K → List (List (Fl K))
  | .elevs v => v
  | .fractions v => v

end Gridpp.Spec
