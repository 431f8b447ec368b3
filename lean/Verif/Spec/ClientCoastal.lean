import Mathlib.Algebra.Order.Field.Basic
import Mathlib.Algebra.Order.Ring.Int

/-! # Specification of the coastal correction (C114) -/

namespace Gridpp.Spec

variable {K : Type} [Field K] [LinearOrder K]

/-- The grid point (i, j) is in the square of radius `r` around (y, x). -/
def InSquare (Y X : Nat) (r : Int) (y x i j : Nat) : Prop :=
  i < Y ∧ j < X ∧ |(i : Int) - y| ≤ r ∧ |(j : Int) - x| ≤ r

/-- (i, j) is, row by row, before (k, l) or the same. -/
def RowOrder (i j k l : Nat) : Prop := i < k ∨ (i = k ∧ j ≤ l)

/-- (i, j) is the first point of the square, row by row, with the smallest `L`. -/
def FirstLeast (Y X : Nat) (r : Int) (y x : Nat) (L : Nat → Nat → K) (i j : Nat) : Prop :=
  InSquare Y X r y x i j ∧ ∀ k l, InSquare Y X r y x k l → L i j < L k l ∨ (L i j = L k l ∧ RowOrder i j k l)

/-- The new value `w` at (y, x) from the values `v`: `a + b * base + c * gradient`, where the base is the value itself or the one at the
point with the least land, and the gradient is that between the points with the least and the most land, if they differ enough. -/
def CoastalValue (useNN : Bool) (d a b c : K) (Y X : Nat) (r : Int) (L v : Nat → Nat → K) (y x : Nat) (w : K) : Prop :=
  ∃ i j k l, FirstLeast Y X r y x L i j ∧ FirstLeast Y X r y x (fun k l => -L k l) k l ∧
    w = a + b * (if useNN then v y x else v i j) + c * (if d < L k l - L i j then (v k l - v i j) / (L k l - L i j) else 0)

end Gridpp.Spec
