import Verif.Base.Fl
import Verif.Spec.Curve
import Verif.Spec.Client
import Verif.Spec.Stats

/-! Specification of the quantile mapping of the client: the curve given by parameters and extra points, and the
corrected value. -/

set_option linter.unusedSectionVars false

namespace Gridpp.Spec
open Fl

variable {K : Type} [Field K] [LinearOrder K]

/-- The first, third, fifth ... entry that has a successor. -/
def firsts {α : Type} : List α → List α
  | a :: _ :: t => a :: firsts t
  | _ => []

/-- The second, fourth ... entry. -/
def seconds {α : Type} : List α → List α
  | _ :: b :: t => b :: seconds t
  | _ => []

/-- Parameters (observation, forecast, observation, ...) and extra points give the curve with observations `os` and
sorted forecasts `fs`, none of which is -999. With extra points both are sorted, by themselves. -/
structure QqCurve (extraObs extraFcst params : List (Fl K)) (os fs : List K) : Prop where
  pos : 0 < os.length
  len : os.length = fs.length
  obs : ∀ v ∈ os, v ≠ -999
  fcst : ∀ v ∈ fs, v ≠ -999
  sorted : fs.Pairwise (· ≤ ·)
  points : (extraObs = [] ∧ firsts params = os.map fin ∧ seconds params = fs.map fin) ∨
    (extraObs ≠ [] ∧ extraObs.length = extraFcst.length ∧ os.Pairwise (· ≤ ·) ∧ (os.map fin).Perm (firsts params ++ extraObs) ∧
      (fs.map fin).Perm (seconds params ++ extraFcst))

/-- The slope of the policy exists, and follows the description of the policy: more than one point for `zero`, no equal
forecasts at the points that define the slope. -/
structure QqRegular (p : Extrapolation) (fs : List K) : Prop where
  client : p ≠ .unchanged ∧ p ≠ .other
  zero : p = .zero → 1 < fs.length
  mean : p = .meanSlope → ∀ h : 1 < fs.length, fs[0] < fs[fs.length - 1]
  nearest : p = .nearestSlope → ∀ h : 1 < fs.length, fs[0] < fs[1] ∧ fs[fs.length - 2] < fs[fs.length - 1]

/-- `w` is the value of the curve at `v`: linear between neighbouring forecasts, the mean of the observations at the
two ends of a run of equal forecasts, and continued with the slope of the policy from the first or last point. -/
structure QqCorrected (p : Extrapolation) (os fs : List K) (v w : K) : Prop where
  between : ∀ i, (h : i + 1 < fs.length) → (h' : i + 1 < os.length) → fs[i] < v → v < fs[i + 1] →
    w = os[i] + (os[i + 1] - os[i]) * ((v - fs[i]) / (fs[i + 1] - fs[i]))
  run : ∀ i j, (hij : i ≤ j) → (hj : j < fs.length) → (hj' : j < os.length) → 0 < i → j + 1 < fs.length →
    (∀ k, (hk : k < fs.length) → (fs[k] = v ↔ i ≤ k ∧ k ≤ j)) → w = (os[i] + os[j]) / 2
  below : ∀ (h : 0 < fs.length) (h' : 0 < os.length), v ≤ fs[0] → ∃ s, ContinuesWith p fs os 0 1 s ∧ w = os[0] + s * (v - fs[0])
  above : ∀ (h : 0 < fs.length) (h' : 0 < os.length), fs[0] < v → fs[fs.length - 1] ≤ v →
    ∃ s, ContinuesWith p fs os (fs.length - 2) (fs.length - 1) s ∧ w = os[os.length - 1] + s * (v - fs[fs.length - 1])

/-- The training cases with an observation and at least one member present, and neither the observation nor the ensemble
mean equal to -999: observation and ensemble mean. -/
def usableCases : List (Fl K × List (Fl K)) → List (K × K)
  | [] => []
  | (fin o, ens) :: t =>
    if o ≠ -999 ∧ present ens ≠ [] ∧ mean (present ens) ≠ -999 then (o, mean (present ens)) :: usableCases t else usableCases t
  | (_, _) :: t => usableCases t

end Gridpp.Spec
