import Verif.Spec.Zaga
import Verif.Spec.Gaussian
import Verif.Spec.ClientStat
import Verif.Spec.Client

/-! # The likelihood of parameters given observations -/

set_option linter.unusedSectionVars false

namespace Gridpp.Spec
open Fl Res

variable {K : Type} [Field K] [LinearOrder K]

/-- What is assumed of a density of boost: for a positive second parameter and values for which `dom` holds it is the number `phi`, which is not
negative. -/
def DensityFamily (pdf : Fl K → Fl K → Fl K → Res (Fl K)) (phi : K → K → K → K) (dom : K → K → Prop) : Prop :=
  ∀ a s x : K, 0 < s → dom a x → pdf (fin a) (fin s) (fin x) = Res.ok (fin (phi a s x)) ∧ 0 ≤ phi a s x

/-- One case of the training: the observation, the mean of the members, and their spread or the fraction of members without precipitation. -/
structure Case3 (K : Type) where
  obs : K
  mean : K
  second : K

/-- The likelihood: the product of the densities of all observations. -/
def likelihood {P : Type} (density : P → Case3 K → K) (cases : List (Case3 K)) (p : P) : K := (cases.map (density p)).prod

/-- The density of the calibrator gaussian: the mean is that of the members, the standard deviation is exp(a + b spread). -/
def gaussianDensity [HasExp K] (phi : K → K → K → K) (p : K × K) (c : Case3 K) : K := phi c.mean (HasExp.exp (p.1 + p.2 * c.second)) c.obs

/-- The density of the calibrator zaga: the probability of no precipitation, or that of precipitation times the density of the gamma distribution with
mean `mu` and standard deviation `sigma mu`. -/
structure ZagaDensity [HasExp K] (phi : K → K → K → K) (p : Fin 8 → K) (c : Case3 K) (d : K) : Prop where
  law : ∃ P mu sigma k s, ZagaModel p c.mean c.second P mu sigma ∧ GammaMoments k s mu (sigma * mu) ∧
    d = if c.obs = 0 then P else (1 - P) * phi k s c.obs

/-- A case for the calibrator gaussian: mean and standard deviation of the members present. -/
structure GaussianCase (d : K × List (Fl K)) (c : Case3 K) : Prop where
  obs : c.obs = d.1
  mean : StatOf .mean 0 (present d.2) c.mean
  spread : StatOf .std 0 (present d.2) c.second

/-- A case for the calibrator zaga: mean of the members present and the fraction of them up to the threshold. -/
structure ZagaCase (threshold : K) (d : K × List (Fl K)) (c : Case3 K) : Prop where
  obs : c.obs = d.1
  mean : StatOf .mean 0 (present d.2) c.mean
  fraction : c.second * ((present d.2).length : K) = (((present d.2).filter fun v => v ≤ threshold).length : K)

/-- What a search for a minimum should give: a point where the function has a value, and no point among `points` where it has a smaller one. -/
def FindsMinimum (points : List (Fl K) → Prop) (search : (List (Fl K) → Res (Fl K)) → List (Fl K) → Res (List (Fl K))) : Prop :=
  ∀ f x r, search f x = Res.ok r → points r ∧ ∃ u, f r = Res.ok (fin u) ∧ ∀ q v, points q → f q = Res.ok (fin v) → u ≤ v

end Gridpp.Spec
