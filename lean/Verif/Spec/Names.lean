import Verif.Model.Util

/-! The names of the statistics: those of the enumeration `Statistic` (include/gridpp.h:88-100) in lower case. -/

namespace Gridpp.Spec

/-- The identifier in include/gridpp.h:89-98; `Unknown` (line 99) is no statistic. -/
def statisticIdentifier : Statistic → Option String
  | .mean => some "Mean"
  | .min => some "Min"
  | .median => some "Median"
  | .max => some "Max"
  | .quantile => some "Quantile"
  | .std => some "Std"
  | .variance => some "Variance"
  | .sum => some "Sum"
  | .count => some "Count"
  | .randomChoice => some "RandomChoice"
  | .unknown => none

/-- The text is the name of the statistic: its identifier in lower case. -/
def Named (name : List Char) (s : Statistic) : Prop := ∃ i, statisticIdentifier s = some i ∧ name = i.toList.map Char.toLower

end Gridpp.Spec
