import Verif.Spec.Stats
import Verif.Model.Client.Util

/-! # The statistics of the client as textbook statistics of a list of numbers -/

namespace Gridpp.Spec

variable {K : Type} [Field K] [LinearOrder K]

/-- `v` is the statistic `s` (with level `p` for a quantile) of the numbers `xs`. -/
def StatOf (s : Client.StatType) (p : K) (xs : List K) (v : K) : Prop :=
  match s with
  | .mean => v = mean xs
  | .sum => v = xs.sum
  | .std => 0 ≤ v ∧ v * v = variance xs
  | .min => MinOf v xs
  | .max => MaxOf v xs
  | .median => OnPolyline (sorted xs) ((xs.length - 1) / 2) v
  | .quantile => OnPolyline (sorted xs) (p * (xs.length - 1)) v

end Gridpp.Spec
