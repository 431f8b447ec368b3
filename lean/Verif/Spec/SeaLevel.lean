import Verif.Base.Pow

/-! Specification of the reduction of pressure to sea level (WMO, CIMO/ET-Stand-1/Doc. 10), in pascal, kelvin and metres. -/

namespace Gridpp.Spec

variable {K : Type} [Field K] [LinearOrder K] [IsStrictOrderedRing K] [LawfulExp K]

/-- Saturation vapour pressure in hPa at `t` degrees Celsius, with the constant `c`. -/
def saturation (c t : K) : K := 611 / 100 * realPow 10 (75 / 10 * t / (c + t))

/-- Vapour pressure in hPa from the relative humidity, else from the dew point, else 0. -/
def vapour (t : K) : Option K → Option K → K
  | some rh, _ => rh * saturation (2373 / 10) (t - 27315 / 100)
  | none, some d => saturation (2373 / 10) (d - 27315 / 100)
  | none, none => 0

/-- Sea level pressure for stations at 50 m or higher. -/
def slpHigh (p z t e : K) : K :=
  p * HasExp.exp (980665 / 100000 * z / (28705 / 100 * (t + 65 / 20000 * z + 12 / 100 * e)))

/-- Sea level pressure for stations below 50 m: station pressure plus `p z / (29.27 Tv)`, where `Tv = t / (1 - 0.379 s / p)` is
the virtual temperature of air with the saturation vapour pressure `s` (hPa) at the dew point. -/
def slpLow (p z t s : K) : K := p + z * (p - 379 / 10 * s) / (2927 / 100 * t)

end Gridpp.Spec
