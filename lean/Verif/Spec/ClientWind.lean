import Verif.Model.Client.WindDirection
import Mathlib.Algebra.BigOperators.Fin
import Mathlib.Algebra.BigOperators.Group.Finset.Basic

/-! # What the correction by wind direction and the QNH of the client are to give -/

namespace Gridpp.Spec
open Client

variable {K : Type} [Field K] [LinearOrder K]

/-- The trigonometric series with the coefficients `c`: a constant, then a pair for each of four multiples of the angle. -/
def windSeries [HasTrigC K] (c : Nat → K) (angle : K) : K :=
  c 0 + ∑ k ∈ Finset.range 4, (c (2 * k + 1) * HasTrigC.sin ((k + 1 : Nat) * angle) + c (2 * k + 2) * HasTrigC.cos ((k + 1 : Nat) * angle))

/-- Degrees as an angle, with the approximation of π of the client. -/
def angleOf (degrees : K) : K := degrees * (314159265 / 100000000) / 180

/-- `q` is the sea level pressure of the standard atmosphere whose pressure at height `elev` is `p`: with the exponent `k = R L / g` and
`T0` = 288.15 K, `(p / 1013.25 hPa)^k = (q / 1013.25 hPa)^k - L elev / T0`. -/
def StandardAtmosphere [LawfulExp K] (q p elev : K) : Prop :=
  0 < q ∧ realPow (p / 101325) (287053 / 1000 * (65 / 10000) / (980665 / 100000)) =
    realPow (q / 101325) (287053 / 1000 * (65 / 10000) / (980665 / 100000)) - 65 / 10000 * elev / (28815 / 100)

end Gridpp.Spec
