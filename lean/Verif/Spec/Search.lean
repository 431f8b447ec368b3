import Verif.Spec.CalcGradient

/-! Neighbourhood search (specification). -/

namespace Gridpp.Spec
open Fl
variable {K : Type} [Field K] [LinearOrder K]

/-- The search value lies in the target range. -/
def inTarget (tmin tmax : Fl K) (s : K) : Bool := tmin.le (fin s) && (fin s).le tmax

/-- Distance of a search value to the nearer end of the target range; for a finite range `min |s - tmin| |s - tmax|`. -/
def rangeDist (tmin tmax : Fl K) (s : K) : Fl K :=
  if (Fl.abs (fin s - tmax)).lt (Fl.abs (fin s - tmin)) then Fl.abs (fin s - tmax) else Fl.abs (fin s - tmin)

/-- The search value differs by at least `delta` from that of the cell. -/
def farEnough (delta here : Fl K) (s : K) : Bool := delta.le (Fl.abs (fin s - here))

/-- `(s, a)` is the first of the candidates closest to the target. -/
def IsFirstClosest (tmin tmax : Fl K) (C : List (K × K)) (s a : K) : Prop :=
  ∃ l1 l2, C = l1 ++ (s, a) :: l2 ∧ (∀ p ∈ l1, (rangeDist tmin tmax s).lt (rangeDist tmin tmax p.1) = true) ∧
    ∀ p ∈ l2, (rangeDist tmin tmax p.1).lt (rangeDist tmin tmax s) = false

/-- Result of the search from the valid pairs `P` (search value, value) of the window, for a cell with search value `here` and value
`own`: the mean of the values in the target range; if there are none, the value of the closest candidate; if there are none, `own`. -/
def IsSearchResult (P : List (K × K)) (tmin tmax delta here own v : Fl K) : Prop :=
  (P.filter (fun p => inTarget tmin tmax p.1) ≠ [] → v = fin (mean ((P.filter fun p => inTarget tmin tmax p.1).map Prod.snd))) ∧
  (P.filter (fun p => inTarget tmin tmax p.1) = [] →
    (P.filter (fun p => farEnough delta here p.1) = [] → v = own) ∧
    (P.filter (fun p => farEnough delta here p.1) ≠ [] →
      ∃ s a, IsFirstClosest tmin tmax (P.filter fun p => farEnough delta here p.1) s a ∧ v = fin a))

end Gridpp.Spec
