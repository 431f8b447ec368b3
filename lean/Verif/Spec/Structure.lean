import Verif.Base.Exp
import Verif.Model.Geo

/-!
# Correlation functions: specification

The correlation of two points is the product of a factor for their horizontal distance, one for the difference in
elevation and one for the difference in land fraction. Each factor is a function of difference divided by scale; it is 1
if the scale is missing or 0 (not used), or if one of the two points has no elevation (land fraction).
-/

set_option linter.unusedSectionVars false

namespace Gridpp.Spec

open Fl

section
variable {K : Type} [Field K] [LinearOrder K] [HasExp K]

/-- The four functions of (difference / scale). -/
def barnes (u : K) : K := HasExp.exp (-(u * u / 2))
def soar (u : K) : K := (1 + u) * HasExp.exp (-u)
def toar (u : K) : K := (1 + u + u * u / 3) * HasExp.exp (-u)
def powerlaw (u : K) : K := 1 / (1 + u * u / 2)

/-- Function of difference divided by scale `L`; 1 if there is no scale or it is 0. -/
def scaled (f : K → K) (d : K) : Fl K → K
  | fin l => if l = 0 then 1 else f (d / l)
  | _ => 1

/-- Linear from 1 (difference 0) to the minimum correlation `c` (difference 1 or more). 1 if `c` is missing or negative. -/
def linear (d : K) : Fl K → K
  | fin c => if c < 0 then 1 else 1 - (1 - c) * min |d| 1
  | _ => 1

/-- Cressman. 0 at the scale and beyond. -/
def cressman (d : K) : Fl K → K
  | fin l => if l = 0 then 1 else if l ≤ d then 0 else (l * l - d * d) / (l * l + d * d)
  | _ => 1

/-- Difference of two values if both are there. -/
def difference : Fl K → Fl K → Option K
  | fin a, fin b => some (a - b)
  | _, _ => none

/-- Factor for an optional difference. -/
def optional (f : K → Fl K → K) (L : Fl K) : Option K → K
  | none => 1
  | some d => f d L

/-- The correlation. -/
def correlation (f : K → Fl K → K) (p1 p2 : Point K) (d : K) (h v w : Fl K) : K :=
  f d h * optional f v (difference p1.elev p2.elev) * optional f w (difference p1.laf p2.laf)

/-- The point `p` is at location `q`. -/
def LiesAt (p : Point K) (q : Pt3 K) : Prop := p.x = fin q.x ∧ p.y = fin q.y ∧ p.z = fin q.z

/-- A scale: a number ≥ 0, or missing. -/
def ScaleOk (L : Fl K) : Prop := ∀ l, L = fin l → 0 ≤ l

end
end Gridpp.Spec
