import Verif.Model.Util
import Verif.Model.Client.Field

/-! # src/client/Util.cpp: statistics, index search, interpolation -/

set_option linter.unusedSectionVars false

namespace Gridpp.Client
open Fl Res

variable {K : Type} [Field K] [LinearOrder K]

/-- `Util::StatType` (src/client/Util.h:135-143). -/
inductive StatType where
  | mean | min | median | max | quantile | std | sum
  deriving DecidableEq, Repr

/-- The loop of mean and sum (src/client/Util.cpp:343-350): total and count of the valid values. -/
def sumCount (array : List (Fl K)) : Fl K × Nat :=
  array.foldl (fun s v => if isValid v then (s.1 + v, s.2 + 1) else s) (0, 0)

/-- One iteration of the loop of the standard deviation (src/client/Util.cpp:367-377): `total, total2, K, count`. The
`assert` holds because `K` is a valid value from the first valid value on. -/
def stdStep (s : Fl K × Fl K × Fl K × Nat) (v : Fl K) : Fl K × Fl K × Fl K × Nat :=
  if isValid v then
    let k := if !isValid s.2.2.1 then v else s.2.2.1
    (s.1 + (v - k), s.2.1 + (v - k) * (v - k), k, s.2.2.2 + 1)
  else s

/-- The standard deviation (src/client/Util.cpp:358-390). -/
def stdOf [HasSqrt K] (array : List (Fl K)) : Fl K :=
  let s := array.foldl stdStep (0, 0, MV, 0)
  if 0 < s.2.2.2 then
    let mean := s.1 / Fl.ofNat s.2.2.2
    let mean2 := s.2.1 / Fl.ofNat s.2.2.2
    let var := mean2 - mean * mean
    Fl.sqrt (if var.lt 0 then 0 else var)
  else MV

/-- A quantile (src/client/Util.cpp:398-425). With one value the two quantiles are 0/0 and not used. -/
def quantileOf [FloorRing K] (array : List (Fl K)) (quantile : Fl K) : Res (Fl K) :=
  let cleanHood := array.filter isValid
  let N := cleanHood.length
  if 0 < N then do
    let sorted ← stdSort cleanHood
    let lowerIndex ← Fl.floorInt (quantile * Fl.ofInt (N - 1))
    let upperIndex ← Fl.ceilInt (quantile * Fl.ofInt (N - 1))
    let lowerQuantile := Fl.ofInt lowerIndex / Fl.ofInt (N - 1)
    let upperQuantile := Fl.ofInt upperIndex / Fl.ofInt (N - 1)
    let lowerValue ← vget sorted lowerIndex
    let upperValue ← vget sorted upperIndex
    if lowerIndex = upperIndex then ok lowerValue
    else do
      assert (upperQuantile.gt lowerQuantile)
      assert (quantile.ge lowerQuantile)
      let f := (quantile - lowerQuantile) / (upperQuantile - lowerQuantile)
      assert (f.ge 0)
      assert (f.le 1)
      ok (lowerValue + (upperValue - lowerValue) * f)
  else ok MV

/-- `Util::calculateStat` (src/client/Util.cpp:339-428). -/
def calculateStat [FloorRing K] [HasSqrt K] (array : List (Fl K)) (s : StatType) (quantile : Fl K) : Res (Fl K) :=
  match s with
  | .mean => let t := sumCount array; ok (if 0 < t.2 then t.1 / Fl.ofNat t.2 else MV)
  | .sum => let t := sumCount array; ok (if 0 < t.2 then t.1 else MV)
  | .std => ok (stdOf array)
  | .min => quantileOf array (fin 0)
  | .median => quantileOf array (fin (1 / 2))
  | .max => quantileOf array (fin 1)
  | .quantile => quantileOf array quantile

end Gridpp.Client
