import Verif.Model.Util

/-! `get_statistic` (src/api/gridpp.cpp). -/

namespace Gridpp

/-- `gridpp::get_statistic(std::string name)` (src/api/gridpp.cpp:11-43): the comparisons of `std::string` in the order of the code. -/
def getStatistic (name : List Char) : Statistic :=
  if name = "mean".toList then .mean
  else if name = "min".toList then .min
  else if name = "max".toList then .max
  else if name = "median".toList then .median
  else if name = "quantile".toList then .quantile
  else if name = "std".toList then .std
  else if name = "sum".toList then .sum
  else if name = "count".toList then .count
  else if name = "randomchoice".toList then .randomChoice
  else .unknown

end Gridpp
