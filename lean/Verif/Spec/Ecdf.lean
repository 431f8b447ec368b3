import Verif.Spec.Stats

/-! # Empirical distribution (specification) -/

namespace Gridpp.Spec
variable {K : Type} [Field K] [LinearOrder K]

/-- Fraction of the values that are at most `t`. -/
def fractionBelow (w : List K) (t : K) : K := ((w.filter fun v => decide (v ≤ t)).length : K) / (w.length : K)

/-- The average, over the cells that hold at least one value, of the fraction of the cell's values that are at most
`t`. -/
def meanFraction (cells : List (List K)) (t : K) : K :=
  mean ((cells.filter fun c => !c.isEmpty).map fun c => fractionBelow c t)

end Gridpp.Spec
