import Verif.Base.Fl
import Verif.Model.Probability

/-! Specification for C62: probabilities as fractions of the valid members, and members selected by a mask. -/

namespace Gridpp.Spec
open Fl

variable {K : Type} [Field K] [LinearOrder K]

/-- The member compares to the threshold as the operator says. -/
def Holds : ComparisonOperator → Fl K → Fl K → Bool
  | .lt, v, t => v.lt t
  | .leq, v, t => v.le t
  | .gt, v, t => t.lt v
  | .geq, v, t => t.le v
  | .other, _, _ => false

/-- `p` is the fraction of the valid members that satisfy `P`; missing if there is no valid member. -/
def IsFraction (members : List (Fl K)) (P : Fl K → Bool) (v : Fl K) : Prop :=
  (members.filter isValid = [] → v = nan) ∧
  (members.filter isValid ≠ [] → ∃ p : K, v = fin p ∧ p * (members.filter isValid).length = ((members.filter isValid).filter P).length)

/-- `masked` takes for each member the value of `trues` where the mask holds, of `falses` where it does not, and is missing
where the mask is. -/
def Selected (P : Fl K → Bool) (mask trues falses masked : List (Fl K)) : Prop :=
  masked.length = trues.length ∧ ∀ (k : Nat) m a b, mask[k]? = some m → trues[k]? = some a → falses[k]? = some b →
    (isValid m = true → P m = true → masked[k]? = some a) ∧ (isValid m = true → P m = false → masked[k]? = some b) ∧
    (isValid m = false → masked[k]? = some nan)

end Gridpp.Spec
