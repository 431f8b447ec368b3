import Verif.Model.Transform
import Verif.Base.Exp

/-! # The Box-Cox t distribution -/

set_option linter.unusedSectionVars false

namespace Gridpp.Spec
open Fl Res

variable {K : Type} [Field K] [LinearOrder K]

/-- What is assumed of the t distributions of boost: for every positive number of degrees of freedom a strictly increasing function with values
between 0 and 1, symmetric around 0, whose inverse is the quantile; its value at infinity is 1. -/
structure StudentFamily (mk : Fl K → Dist K) (T : K → K → K) : Prop where
  cdf : ∀ tau x : K, 0 < tau → (mk (fin tau)).cdf (fin x) = ok (fin (T tau x))
  infinity : ∀ tau : K, 0 < tau → (mk (fin tau)).cdf pinf = ok (fin 1)
  range : ∀ tau x : K, 0 < tau → 0 < T tau x ∧ T tau x < 1
  mono : ∀ tau x y : K, 0 < tau → x < y → T tau x < T tau y
  symmetric : ∀ tau x : K, 0 < tau → T tau (-x) = 1 - T tau x
  quantile : ∀ tau p : K, 0 < tau → 0 < p → p < 1 → ∃ z, (mk (fin tau)).quantile (fin p) = ok (fin z) ∧ T tau z = p

/-- The Box-Cox transformation. -/
def boxCox [HasExp K] (nu y : K) : K := if nu = 0 then HasExp.log y else (HasExp.exp (nu * HasExp.log y) - 1) / nu

/-- `q` is the probability of a value up to `z` in the distribution `T` restricted to the possible values: those below 1 / (sigma |nu|)
for negative `nu`, those above -1 / (sigma nu) for positive `nu`. -/
def TruncatedLevel (T : K → K) (sigma nu z q : K) : Prop :=
  (nu < 0 → T z / T (1 / (sigma * -nu)) = q) ∧ (nu = 0 → T z = q) ∧
  (0 < nu → (T z - T (-(1 / (sigma * nu)))) / (1 - T (-(1 / (sigma * nu)))) = q)

/-- `y` has the level `q` in the Box-Cox t distribution with median factor 1. -/
def BctLevel [HasExp K] (T : K → K) (sigma nu y q : K) : Prop :=
  0 < y ∧ ∃ z, boxCox nu y = sigma * z ∧ TruncatedLevel T sigma nu z q

end Gridpp.Spec
