import Verif.Spec.ParameterText

/-! # A table of forecasts for one place as text -/

namespace Gridpp.Spec
open Fl

/-- A forecast for a time. -/
structure PointReport (K : Type) where
  time : K
  values : List (Fl K)

/-- The line gives the forecast: the time and the members. -/
def PointIn {K : Type} [Field K] (line : List Char) (r : PointReport K) : Prop :=
  ∃ wt ws, WordLine line (wt :: ws) ∧ Numeral wt r.time ∧ List.Forall₂ (fun w v => ∃ q : K, Numeral w q ∧ v = fin q) ws r.values

/-- The members for a time: those of the last line for it. -/
def lastAt {K : Type} [Field K] [DecidableEq K] (rs : List (PointReport K)) (t : Int) : Option (List (Fl K)) :=
  (rs.filter fun r => r.time = (t : K)).getLast?.map PointReport.values

end Gridpp.Spec
