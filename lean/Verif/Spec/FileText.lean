import Verif.Spec.ParameterText

/-! # A table of forecasts as text -/

namespace Gridpp.Spec
open Fl

/-- A forecast for a time and a place. -/
structure Report (K : Type) where
  time : Int
  lat : K
  lon : K
  elev : K
  values : List (Fl K)

/-- The line gives the forecast: the time, a whole number that an `int` can hold, the place and the members. -/
def ReportIn {K : Type} [Field K] (line : List Char) (r : Report K) : Prop :=
  ∃ wt wa wb wh ws, WordLine line (wt :: wa :: wb :: wh :: ws) ∧ IntNumeral wt r.time ∧ -2147483648 ≤ r.time ∧ r.time ≤ 2147483647 ∧
    Numeral wa r.lat ∧ Numeral wb r.lon ∧ Numeral wh r.elev ∧ List.Forall₂ (fun w v => ∃ q : K, Numeral w q ∧ v = fin q) ws r.values

/-- The first place comes before the second: from south to north, from west to east, from low to high. -/
def PlaceBefore {K : Type} [LinearOrder K] (a b : K × K × K) : Prop :=
  a.1 < b.1 ∨ a.1 = b.1 ∧ (a.2.1 < b.2.1 ∨ a.2.1 = b.2.1 ∧ a.2.2 < b.2.2)

variable {K : Type} [DecidableEq K]

/-- The forecasts for a time and a place. -/
def reportsFor (rs : List (Report K)) (t : Int) (p : K × K × K) : List (Report K) := rs.filter fun r => r.time = t ∧ (r.lat, r.lon, r.elev) = p

/-- The value of a member for a time and a place: that of the last forecast for them, if there is any. -/
def lastReport (rs : List (Report K)) (t : Int) (p : K × K × K) (e : Nat) : Option (Fl K) := (reportsFor rs t p).getLast?.bind (·.values[e]?)

end Gridpp.Spec
