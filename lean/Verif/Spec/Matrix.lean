import Mathlib.LinearAlgebra.Matrix.Determinant.Basic
import Mathlib.Algebra.BigOperators.Fin

/-! # Matrices and least squares -/

namespace Gridpp.Spec

variable {K : Type} [Field K]

/-- The sum of the products. -/
def kdot (a b : List K) : K := (List.zipWith (· * ·) a b).sum

/-- A list of rows as a matrix. -/
def matOf (N M : Nat) (X : List (List K)) : Matrix (Fin N) (Fin M) K := fun i j => (X.getD i []).getD j 0

/-- The prediction at time `t` with coefficients `b` for the columns. -/
def predict (cols : List (List K)) (b : List K) (t : Nat) : K := kdot b (cols.map fun c => c.getD t 0)

/-- The sum of the squared errors. -/
def squaredError (cols : List (List K)) (y b : List K) : K := ((List.range y.length).map fun t => (y.getD t 0 - predict cols b t) ^ 2).sum

/-- No column is a combination of the others: only with coefficients 0 the predictions are all 0. -/
def IndependentColumns (T : Nat) (cols : List (List K)) : Prop :=
  ∀ v : List K, v.length = cols.length → (∀ t < T, predict cols v t = 0) → ∀ x ∈ v, x = 0

end Gridpp.Spec
