import Verif.Model.Curve
import Mathlib.Algebra.Order.Field.Basic

/-! Specification of curve extrapolation: which slope continues a finite curve `(xs[i], ys[i])`. -/

set_option linter.unusedSectionVars false

namespace Gridpp
open Fl

variable {K : Type} [Field K] [LinearOrder K]

/-- `s` is the slope with which policy `p` continues the curve; `i`, `j` are the positions of the two points of the end
segment. A curve of one point continues with slope 1 unless the policy is `Zero`. -/
def ContinuesWith (p : Extrapolation) (xs ys : List K) (i j : Nat) (s : K) : Prop :=
  (p = .zero ∧ s = 0) ∨ (p = .oneToOne ∧ s = 1) ∨
  ((p = .meanSlope ∨ p = .nearestSlope) ∧ xs.length = 1 ∧ s = 1) ∨
  (p = .meanSlope ∧ ∃ (h : 1 < xs.length) (h' : 1 < ys.length),
    s * (xs[xs.length - 1] - xs[0]) = ys[ys.length - 1] - ys[0]) ∨
  (p = .nearestSlope ∧ 1 < xs.length ∧ ∃ (hi : i < xs.length) (hj : j < xs.length) (hi' : i < ys.length) (hj' : j < ys.length),
    s * (xs[j] - xs[i]) = ys[j] - ys[i])

/-- The valid pairs of a curve, as finite numbers, in order. -/
def finitePairs {K : Type} (ref fcst : List (Fl K)) : List (K × K) :=
  (ref.zip fcst).filterMap fun p => match p with
    | (fin r, fin f) => some (r, f)
    | _ => none

end Gridpp
