import Verif.Model.Transform
import Mathlib.Algebra.BigOperators.Group.Finset.Basic

/-! # Normal distributions, mean and standard deviation -/

set_option linter.unusedSectionVars false

namespace Gridpp.Spec
open Fl Res

variable {K : Type} [Field K] [LinearOrder K]

/-- What is assumed of the normal distributions of boost: a strictly increasing function `Phi` with values between 0 and 1, symmetric around
0, moved by the mean and stretched by the standard deviation, and its inverse `Q`. -/
structure NormalFamily (mk : Fl K → Fl K → Dist K) (Phi Q : K → K) : Prop where
  cdf : ∀ m s x : K, 0 < s → (mk (fin m) (fin s)).cdf (fin x) = ok (fin (Phi ((x - m) / s)))
  quantile : ∀ m s p : K, 0 < s → 0 < p → p < 1 → (mk (fin m) (fin s)).quantile (fin p) = ok (fin (m + s * Q p))
  range : ∀ x : K, 0 < Phi x ∧ Phi x < 1
  mono : ∀ x y : K, x < y → Phi x < Phi y
  symmetric : ∀ x : K, Phi (-x) = 1 - Phi x
  inverse : ∀ p : K, 0 < p → p < 1 → Phi (Q p) = p

/-- `m` is the mean of the values and `s` their standard deviation. -/
structure MeanAndSpread {ι : Type} (S : Finset ι) (g : ι → K) (m s : K) : Prop where
  mean : (S.card : K) * m = ∑ q ∈ S, g q
  nonneg : 0 ≤ s
  spread : (S.card : K) * (s * s) = ∑ q ∈ S, (g q - m) * (g q - m)

end Gridpp.Spec
