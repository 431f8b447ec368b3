import Mathlib.Algebra.Order.Field.Basic
import Mathlib.Algebra.Order.Floor.Ring
import Mathlib.Algebra.BigOperators.Group.List.Basic
import Mathlib.Data.List.Sort

/-!
# Textbook statistics of a list of numbers
Independent of the model: plain functions of a list of field elements.
-/

namespace Gridpp.Spec

variable {K : Type} [Field K]

/-- Arithmetic mean. -/
def mean (xs : List K) : K := xs.sum / (xs.length : K)

/-- Population variance: average squared deviation from the mean. -/
def variance (xs : List K) : K := (xs.map fun x => (x - mean xs) ^ 2).sum / (xs.length : K)

variable [LinearOrder K]

/-- `m` is the smallest element of `xs`. -/
def MinOf (m : K) (xs : List K) : Prop := m ∈ xs ∧ ∀ x ∈ xs, m ≤ x

/-- `m` is the largest element of `xs`. -/
def MaxOf (m : K) (xs : List K) : Prop := m ∈ xs ∧ ∀ x ∈ xs, x ≤ m

/-- The values in increasing order. -/
def sorted (xs : List K) : List K := xs.insertionSort (· ≤ ·)

/-- `v` is the value of the piecewise linear function through the points `(i, s[i])` at position `p`. -/
def OnPolyline (s : List K) (p v : K) : Prop :=
  (∃ i : Nat, ∃ h : i < s.length, p = i ∧ v = s[i]) ∨
  (∃ i : Nat, ∃ h : i + 1 < s.length, (i : K) < p ∧ p < i + 1 ∧ v = s[i] + (s[i + 1] - s[i]) * (p - i))

end Gridpp.Spec
