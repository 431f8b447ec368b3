import Mathlib.Algebra.BigOperators.Fin
import Mathlib.Algebra.Field.Basic

/-! # Regression -/

namespace Gridpp.Spec

variable {K : Type} [Field K]

/-- The polynomial with the coefficients `as`. -/
def polyValue (as : List K) (x : K) : K := ∑ i : Fin as.length, as[i] * x ^ (i : ℕ)

/-- The sum of the products. -/
def weightedSum (as bs : List K) : K := (List.zipWith (· * ·) as bs).sum

/-- The sum of the squares of the errors of the line `a + b x`; each case is an observation and an `x`. -/
def squareError (cases : List (K × K)) (a b : K) : K := (cases.map fun c => (c.1 - (a + b * c.2)) ^ 2).sum

end Gridpp.Spec
