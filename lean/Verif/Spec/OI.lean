import Verif.Spec.Structure
import Mathlib.LinearAlgebra.Matrix.NonsingularInverse

/-! Specification of optimal interpolation at one output point, in terms of numbers only. -/

namespace Gridpp.Spec
open Matrix

section
variable {K : Type} [Field K] [LinearOrder K] [IsStrictOrderedRing K]

/-- `sel` lists different usable observations: at most `max` (unless `max = 0`); whatever usable observation is left out,
is left out because the list is full, and is not better correlated than any in the list. -/
structure Selection (usable : Nat → Prop) (rho : Nat → K) (max : Nat) {n : Nat} (sel : Fin n → Nat) : Prop where
  inj : Function.Injective sel
  mem : ∀ a, usable (sel a)
  atMost : max = 0 ∨ n ≤ max
  best : ∀ i, usable i → (∃ a, sel a = i) ∨ (n = max ∧ 0 < max ∧ ∀ a, rho i ≤ rho (sel a))

/-- Error covariances of the selected observations: correlation `P` of the background plus the ratio of the variances. -/
def system {n : Nat} (sel : Fin n → Nat) (P : Nat → Nat → K) (ratio : Nat → K) : Matrix (Fin n) (Fin n) K :=
  Matrix.of fun a b => P (sel a) (sel b) + if a = b then ratio (sel a) else 0

/-- `x` is between min(0, smallest `d`) and max(0, largest `d`). -/
def InRange {n : Nat} (d : Fin n → K) (x : K) : Prop := (0 ≤ x ∨ ∃ a, d a ≤ x) ∧ (x ≤ 0 ∨ ∃ a, x ≤ d a)

/-- The case missed by the filter: the largest `d` is exactly 0 and `x > 0`, or the smallest is exactly 0 and `x < 0`. -/
def Gap {n : Nat} (d : Fin n → K) (x : K) : Prop :=
  (0 < x ∧ (∀ a, d a ≤ 0) ∧ ∃ a, d a = 0) ∨ (x < 0 ∧ (∀ a, 0 ≤ d a) ∧ ∃ a, d a = 0)

/-- The increment `inc` made from the raw increment `x` when extrapolation is not allowed. -/
structure Limited {n : Nat} (d : Fin n → K) (x inc : K) : Prop where
  keep : InRange d x ∨ Gap d x → inc = x
  above : ¬ InRange d x → ¬ Gap d x → 0 < x → (∃ a, inc = d a) ∧ ∀ a, d a ≤ inc
  below : ¬ InRange d x → ¬ Gap d x → x < 0 → (∃ a, inc = d a) ∧ ∀ a, inc ≤ d a

/-- The increment `inc` made from the raw increment `x` of an ensemble member when extrapolation is not allowed: the nearest
number between min(0, smallest `d`) and max(0, largest `d`), except in the case missed by the filter. -/
structure Clamped {n : Nat} (d : Fin n → K) (x inc : K) : Prop where
  gap : Gap d x → inc = x
  range : ¬ Gap d x → InRange d inc
  nearest : ¬ Gap d x → ∀ v, InRange d v → |inc - x| ≤ |v - x|

/-- Optimal interpolation member by member: all members use the weights `w` of the selected observations; `g` are the
correlations with the output point, `P` those between observations, `d i e` is the innovation of member `e` at observation `i`,
`br` a factor given for the output point, and `inc e` the increment of member `e < n`. -/
def MemberwiseOI {m : Nat} (sel : Fin m → Nat) (g : Nat → K) (P : Nat → Nat → K) (ratio : Nat → K) (d : Nat → Nat → K) (br : K)
    (extrap : Bool) (n : Nat) (inc : Nat → K) : Prop :=
  (system sel P ratio).det ≠ 0 ∧ ∃ w : Fin m → K, w ᵥ* system sel P ratio = g ∘ sel ∧ ∀ e < n,
    (extrap = true → inc e = br * (w ⬝ᵥ fun i => d (sel i) e)) ∧
    (extrap = false → Clamped (fun i => d (sel i) e) (br * (w ⬝ᵥ fun i => d (sel i) e)) (inc e))

end
end Gridpp.Spec
