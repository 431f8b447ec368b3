import Mathlib.Order.Basic
import Mathlib.Data.List.Perm.Basic
import Mathlib.Order.Interval.Finset.Nat

/-! # Members that are replaced by quantiles -/

namespace Gridpp.Spec

variable {K : Type} [LinearOrder K]

/-- `out` are the values `w` in an order in which a member that was below another one is not above it. -/
structure Reordered (E : Nat) (raw w out : Nat → K) : Prop where
  perm : ((List.range E).map out).Perm ((List.range E).map w)
  order : ∀ i < E, ∀ j < E, raw i < raw j → out i ≤ out j

/-- The number of members below member `e`. -/
def rankOf (E : Nat) (raw : Nat → K) (e : Nat) : Nat := ((Finset.range E).filter fun i => raw i < raw e).card

end Gridpp.Spec
