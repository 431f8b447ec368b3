import Verif.Base.Fl

/-! # Specifications for the client: missing is -999 -/

namespace Gridpp.Spec

variable {K : Type} [Field K] [LinearOrder K]

/-- The numbers in a list that do not stand for a missing value. -/
def present (l : List (Fl K)) : List K := (Fl.vals l).filter fun q => decide (q ≠ -999)

end Gridpp.Spec
