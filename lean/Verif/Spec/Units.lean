import Verif.Base.Fl

/-! Change of units (C171, C173, C174, C175). -/

namespace Gridpp.Spec
open Fl

/-- A value in other units: `c` times the value plus `d`. -/
def inUnits {K : Type} [Field K] [LinearOrder K] (c d : K) (v : Fl K) : Fl K := fin c * v + fin d

/-- The values of a list in other units, each with an offset of its own. -/
def inUnitsEach {K : Type} [Field K] [LinearOrder K] (c : K) (d : Nat → K) (l : List (Fl K)) : List (Fl K) := l.mapIdx fun i v => inUnits c (d i) v

/-- The members of an ensemble (for each place a list) in other units, with an offset for each place. -/
def ensInUnits {K : Type} [Field K] [LinearOrder K] (c : K) (d : Nat → K) (a : List (List (Fl K))) : List (List (Fl K)) :=
  a.mapIdx fun i r => r.map (inUnits c (d i))

/-- A difference or a gradient in other units: `c` times the value. -/
abbrev times {K : Type} [Field K] [LinearOrder K] (c : K) : Fl K → Fl K := fun v => fin c * v

/-- Changes of units, one for each time. -/
def UnitChanges {K : Type} [Field K] [LinearOrder K] (F : List (Fl K → Fl K)) : Prop := ∀ f ∈ F, ∃ c d : K, c ≠ 0 ∧ f = inUnits c d

/-- The nine values of `full_gradient_debug` in other units: value, differences of land fraction and elevation, two corrections, two land fractions, values with one
correction. -/
def debugInUnits {K : Type} [Field K] [LinearOrder K] (c d : K) : List (Fl K) → List (Fl K) :=
  List.zipWith (fun f v => f v) [inUnits c d, id, id, times c, times c, id, id, inUnits c d, inUnits c d]

end Gridpp.Spec
