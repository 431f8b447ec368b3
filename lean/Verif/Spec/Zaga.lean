import Verif.Base.Exp
import Verif.Model.Transform
import Mathlib.Algebra.BigOperators.Group.Finset.Basic
import Mathlib.Order.Interval.Finset.Nat

/-! # The zero-adjusted gamma distribution -/

set_option linter.unusedSectionVars false

namespace Gridpp.Spec
open Fl Res

variable {K : Type} [Field K] [LinearOrder K]

/-- `r` is the third root of `m`. -/
def ThirdRoot (r m : K) : Prop := 0 ≤ r ∧ r * r * r = m

/-- What is assumed of the gamma distributions of boost: with positive shape `k` and scale `s`, `F k s` is the distribution function for
thresholds from 0 on and the quantile of a level in [0, 1) is where `F k s` has that level. -/
structure GammaFamily (mk : Fl K → Fl K → Dist K) (F : K → K → K → K) : Prop where
  cdf : ∀ k s x : K, 0 < k → 0 < s → 0 ≤ x → (mk (fin k) (fin s)).cdf (fin x) = ok (fin (F k s x))
  zero : ∀ k s : K, 0 < k → 0 < s → F k s 0 = 0
  lt_one : ∀ k s x : K, 0 < k → 0 < s → 0 ≤ x → F k s x < 1
  mono : ∀ k s x y : K, 0 < k → 0 < s → 0 ≤ x → x < y → F k s x < F k s y
  quantile : ∀ k s p : K, 0 < k → 0 < s → 0 ≤ p → p < 1 →
    ∃ v, (mk (fin k) (fin s)).quantile (fin p) = ok (fin v) ∧ 0 ≤ v ∧ F k s v = p

/-- The distribution for the parameters `c`, the ensemble mean `m` and the fraction `f` of members without precipitation, as described
for the calibrator: no precipitation with probability `P`, else a gamma distribution with mean `mu` and standard deviation
`sigma * mu`. -/
structure ZagaModel [HasExp K] (c : Fin 8 → K) (m f P mu sigma : K) : Prop where
  law : ∃ r, ThirdRoot r m ∧ P = 1 / (1 + HasExp.exp (-(c 4 + c 5 * m + c 6 * f + c 7 * r))) ∧
    mu = HasExp.exp (c 0 + c 1 * r) ∧ sigma = HasExp.exp (c 2 + c 3 * m)

/-- Shape and scale of the gamma distribution with this mean and standard deviation. -/
def GammaMoments (k s mean sd : K) : Prop := 0 < k ∧ 0 < s ∧ k * s = mean ∧ k * s * s = sd * sd

/-- The distribution function of the mixture. -/
def zagaFunction (F : K → K → K → K) (P k s x : K) : K := if x < 0 then 0 else P + (1 - P) * F k s x

/-! The predictors of the calibrator -/

/-- The members of the grid points at most `nb` rows and columns away: (member, row, column). -/
def zagaSample (Y X E nb y x : Nat) : Finset (Nat × Nat × Nat) :=
  (Finset.range E ×ˢ Finset.range Y ×ˢ Finset.range X).filter fun q => q.2.1 ≤ y + nb ∧ y ≤ q.2.1 + nb ∧ q.2.2 ≤ x + nb ∧ x ≤ q.2.2 + nb

/-- The mean, but not more than `top`. -/
def sampleMean {ι : Type} (S : Finset ι) (g : ι → K) (top : K) : K := min ((∑ q ∈ S, g q) / (S.card : K)) top

/-- The fraction of values up to the threshold. -/
def sampleFraction {ι : Type} (S : Finset ι) (g : ι → K) (threshold : K) : K := ((S.filter fun q => g q ≤ threshold).card : K) / (S.card : K)

end Gridpp.Spec
