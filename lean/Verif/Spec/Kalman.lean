import Verif.Base.Fl
import Mathlib.Algebra.Order.Field.Basic
import Mathlib.Algebra.BigOperators.Fin

/-! Specification of the Kalman update with the statistics of an ensemble. -/

namespace Gridpp.Spec

section
variable {K : Type} [Field K]

/-- Mean of the members `S`. -/
def ensMean (S : Finset Nat) (x : Nat → K) : K := (∑ e ∈ S, x e) / (S.card : K)

/-- Covariance between two quantities over the members `S`. -/
def ensCov (S : Finset Nat) (x y : Nat → K) : K := (∑ e ∈ S, (x e - ensMean S x) * (y e - ensMean S y)) / ((S.card : K) - 1)

/-- `k` is the Kalman gain for a quantity with the members `x`: `p i e` is member `e` at observation `i`, `r i` is the error
variance of the observation. -/
def KalmanGain (S : Finset Nat) (x : Nat → K) {m : Nat} (p : Fin m → Nat → K) (r : Fin m → K) (k : Fin m → K) : Prop :=
  ∀ j, ∑ i, k i * (ensCov S (p i) (p j) + if i = j then r i else 0) = ensCov S (p j) x

/-- The ensemble `a` is the Kalman update of the ensemble `x` with the observations `o`: the gain is well-defined, the mean
moves by the gain times the innovations, the variance is what remains of that of `x`; it does not grow. -/
def KalmanUpdate [LinearOrder K] (S : Finset Nat) (x : Nat → K) {m : Nat} (p : Fin m → Nat → K) (r o : Fin m → K) (a : Nat → K) : Prop :=
  ∃ k : Fin m → K, (∀ k', KalmanGain S x p r k' ↔ k' = k) ∧
    ensMean S a = ensMean S x + ∑ i, k i * (o i - ensMean S (p i)) ∧
    ensCov S a a = ensCov S x x - ∑ i, k i * ensCov S (p i) x ∧
    ensCov S a a ≤ ensCov S x x

/-- `k` is the Kalman gain if the covariances of the ensemble are multiplied by `c` and the errors of the observations have the
covariances `R`. -/
def InflatedGain (S : Finset Nat) (x : Nat → K) {m : Nat} (p : Fin m → Nat → K) (c : K) (R : Fin m → Fin m → K) (k : Fin m → K) : Prop :=
  ∀ j, ∑ i, k i * (c * ensCov S (p i) (p j) + R i j) = c * ensCov S (p j) x

/-- The ensemble `a` is the Kalman update of the ensemble `x`, whose covariances are multiplied by `c`, with the differences `d` between
observations and forecasts. -/
def InflatedUpdate [LinearOrder K] (S : Finset Nat) (x : Nat → K) {m : Nat} (p : Fin m → Nat → K) (c : K) (R : Fin m → Fin m → K) (d : Fin m → K)
    (a : Nat → K) : Prop :=
  ∃ k : Fin m → K, (∀ k', InflatedGain S x p c R k' ↔ k' = k) ∧
    ensMean S a = ensMean S x + ∑ i, k i * d i ∧
    ensCov S a a = c * (ensCov S x x - ∑ i, k i * ensCov S (p i) x) ∧
    ensCov S a a ≤ c * ensCov S x x

/-- Standard deviation of the members `S` (population form). -/
def ensSpread [HasSqrt K] (S : Finset Nat) (x : Nat → K) : K :=
  HasSqrt.sqrt ((∑ e ∈ S, (x e - ensMean S x) * (x e - ensMean S x)) / (S.card : K))

/-- Correlation between two quantities over the members `S`. -/
def ensCorr [HasSqrt K] (S : Finset Nat) (x y : Nat → K) : K :=
  (∑ e ∈ S, (x e - ensMean S x) * (y e - ensMean S y)) /
    (HasSqrt.sqrt (∑ e ∈ S, (x e - ensMean S x) * (x e - ensMean S x)) * HasSqrt.sqrt (∑ e ∈ S, (y e - ensMean S y) * (y e - ensMean S y)))

/-- Correlation over the members `S`, taken as 0 if one of the standard deviations is not above 0.0013. -/
def ensCorrOr0 [HasSqrt K] [LinearOrder K] (S : Finset Nat) (x y : Nat → K) : K :=
  if 13 / 10000 < ensSpread S x ∧ 13 / 10000 < ensSpread S y then ensCorr S x y else 0

/-- `k` is the gain for the correlations `g` with the output point and `C` between the observations, and the error variances `r`
relative to the background. -/
def CorrGain {m : Nat} (g : Fin m → K) (C : Fin m → Fin m → K) (r k : Fin m → K) : Prop :=
  ∀ j, ∑ i, k i * (C i j + if i = j then r i else 0) = g j

/-- The ensemble `a` is the update of the ensemble `x` in units of its standard deviation: the mean moves by `br` times gain times
the innovations `d`, and the variance is the part of it not explained. The gain is made with the correlations multiplied by `c`. -/
def CorrUpdate [LinearOrder K] [HasSqrt K] (S : Finset Nat) (x : Nat → K) {m : Nat} (c : K) (g : Fin m → K) (C : Fin m → Fin m → K)
    (r d : Fin m → K) (br : K) (a : Nat → K) : Prop :=
  ∃ k : Fin m → K, (∀ k', CorrGain (fun j => c * g j) (fun i j => c * C i j) r k' ↔ k' = k) ∧
    ensMean S a = ensMean S x + br * ∑ i, k i * d i ∧
    ensSpread S a ^ 2 = ensSpread S x ^ 2 * (1 - ∑ i, k i * g i) ∧
    ensSpread S a ≤ ensSpread S x

end
end Gridpp.Spec
