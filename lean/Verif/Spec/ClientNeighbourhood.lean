import Verif.Spec.ClientStat
import Verif.Spec.Client
import Verif.Spec.Square

/-! # What the neighbourhood calibrator of the client is to give -/

namespace Gridpp.Spec

variable {K : Type} [Field K] [LinearOrder K]

/-- `w` is right for the values `box` around a grid point with value `v`: the statistic of the numbers present, and if there are none, the
value as it was (`keeps`) or the missing value. -/
def NeighbourhoodValue (s : Client.StatType) (p : K) (keeps : Bool) (box : List (Fl K)) (v w : Fl K) : Prop :=
  (present box = [] → w = if keeps then v else Fl.fin (-999)) ∧
  (present box ≠ [] → ∃ u, w = Fl.fin u ∧ StatOf s p (present box) u)

/-- `w` is a number between two of the numbers present. -/
def WithinBox (box : List (Fl K)) (w : Fl K) : Prop := ∃ u, w = Fl.fin u ∧ ∃ lo ∈ present box, ∃ hi ∈ present box, lo ≤ u ∧ u ≤ hi

end Gridpp.Spec
