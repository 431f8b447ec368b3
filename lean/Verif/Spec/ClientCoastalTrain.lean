import Verif.Spec.Client
import Verif.Spec.Stats
import Verif.Spec.ClientCoastal
import Verif.Spec.ClientRegression

/-! # Specification of the training of the coastal correction (C160) -/

namespace Gridpp.Spec

variable {K : Type} [Field K] [LinearOrder K]

/-- The mean of the members that are present, unless it happens to be the missing value. -/
def memberMean (ens : List (Fl K)) : Option K :=
  if present ens ≠ [] ∧ mean (present ens) ≠ -999 then some (mean (present ens)) else none

/-- One case of the training: the observation, and the members at the grid point, at the one with the least land and at the one with the
most land. -/
structure CoastCase (K : Type) where
  obs : Fl K
  here : List (Fl K)
  sea : List (Fl K)
  land : List (Fl K)

/-- What the correction has to explain: the observation minus the mean forecast at the grid point, or at the one with the least land. -/
def CoastCase.error? (useNN : Bool) (c : CoastCase K) : Option K :=
  match c.obs, memberMean c.here, memberMean c.sea with
  | .fin o, some h, s => if o = -999 then none else if useNN then some (o - h) else s.map (o - ·)
  | _, _, _ => none

/-- The gradient between the points with the least and the most land. -/
def CoastCase.gradient (range : K) (c : CoastCase K) : K :=
  match memberMean c.sea, memberMean c.land with
  | some s, some l => (l - s) / range
  | _, _ => 0

/-- The pairs of errors and gradients. -/
def coastPairs (useNN : Bool) (range : K) (cases : List (CoastCase K)) : List (K × K) :=
  cases.filterMap fun c => (c.error? useNN).map fun y => (y, c.gradient range)

end Gridpp.Spec
