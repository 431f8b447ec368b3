import Verif.Spec.Structure
import Verif.Spec.OI

/-! # Specification of the calibrator `oi` of the client -/

set_option linter.unusedSectionVars false

namespace Gridpp.Spec

section
variable {K : Type} [Field K] [LinearOrder K] [HasExp K]

/-- A factor that is not used without a scale. -/
def factor (f : K → K) : Option K → K → K
  | none, _ => 1
  | some a, d => f (d / a)

/-- A factor that falls linearly from 1 without difference to `m` for the difference 1. -/
def landFactor : Option K → K → K
  | none, _ => 1
  | some m, d => 1 - (1 - m) * |d|

/-- The factor for the difference in elevation: with a vertical scale, there is no correlation if the difference is not known. -/
def elevFactor : Option K → Option K → K
  | none, _ => 1
  | some _, none => 0
  | some a, some v => barnes (v / a)

/-- The correlation of two places with the distance `d`, the difference in elevation `v` (if both elevations are known) and the
difference in land fraction `l`; the scales `V`, `W` and the least land factor `M` are optional. -/
def oiCorrelation (f : K → K) (H : K) (V M W : Option K) (d : K) (v : Option K) (l : K) : K :=
  f (d / H) * elevFactor V v * landFactor M l * factor barnes W l

end

section
variable {K : Type} [Field K] [LinearOrder K]

/-- A station: observation and elevation (if known), nearest grid point, its elevation, and its land fraction (if known). -/
structure OiFacts (K : Type) where
  obs : Option K
  elev : Option K
  y : Nat
  x : Nat
  gridElev : K
  land : Option K

/-- A station that may be used: with an observation; if there is a limit, with a known elevation that differs by less than the limit from
that of the nearest grid point; and not at sea if only land is wanted. -/
structure OiAcceptable (limit : Option K) (landOnly : Bool) (s : OiFacts K) : Prop where
  obs : s.obs ≠ none
  elev : ∀ m ∈ limit, ∃ e ∈ s.elev, |e - s.gridElev| < m
  land : landOnly = true → s.land ≠ some 0

/-- The nearest grid point of the station is not at the edge of the grid. -/
def OiInterior (nY nX : Nat) (s : OiFacts K) : Prop := 1 ≤ s.y ∧ s.y + 2 ≤ nY ∧ 1 ≤ s.x ∧ s.x + 2 ≤ nX

/-- The grid point is in the square of the station, which has `2 r` points on each side: `r` before it, and `r - 1` after it. -/
def OiWindow (r : Int) (s : OiFacts K) (y x : Nat) : Prop :=
  (s.y : Int) - r ≤ y ∧ (y : Int) ≤ (s.y : Int) + r - 1 ∧ (s.x : Int) - r ≤ x ∧ (x : Int) ≤ (s.x : Int) + r - 1

/-- `sel` lists usable stations, each once, at most `max` of them; what is left out is not better correlated than any in the list, and
the list is full. -/
structure Best (usable : Nat → Prop) (rho : Nat → K) (max : Option Nat) (sel : List Nat) : Prop where
  nodup : sel.Nodup
  mem : ∀ i ∈ sel, usable i
  atMost : ∀ m ∈ max, sel.length ≤ m
  left : ∀ i, usable i → i ∈ sel ∨ (max = some sel.length ∧ ∀ j ∈ sel, rho i ≤ rho j)

/-- In a cross-validation a station with the greatest correlation is not usable. -/
def WithoutBest (usable : Nat → Prop) (rho : Nat → K) (usable' : Nat → Prop) : Prop :=
  (∀ i, ¬ usable i ∧ ¬ usable' i) ∨ ∃ b, usable b ∧ (∀ i, usable i → rho i ≤ rho b) ∧ ∀ i, usable' i ↔ usable i ∧ i ≠ b

/-- Not less than the bound, if there is one. -/
def atLeast : Option K → K → K
  | none, v => v
  | some l, v => max v l

/-- The stations used, with or without cross-validation. -/
def StationChoice (cv : Bool) (usable : Nat → Prop) (rho : Nat → K) (max : Option Nat) (sel : List Nat) : Prop :=
  ∃ usable', (cv = false → usable' = usable) ∧ (cv = true → WithoutBest usable rho usable') ∧ Best usable' rho max sel

end

section
variable {K : Type} [Field K] [LinearOrder K] [HasExp K]

/-- The correlations between the errors of the observations: those of different radar stations at the distance `D` have one, with the scale `L`. -/
def radarCorr (radar : Nat → Bool) (D : Nat → Nat → K) (L : K) {m : Nat} (sel : Fin m → Nat) (i j : Fin m) : K :=
  if i = j then 1 else if radar (sel i) && radar (sel j) then soar (D (sel i) (sel j) / L) else 0

/-- The covariances between the errors of the observations: `sc` is the standard deviation for radar stations, `sg^2 * ci` the variance for
others. They are divided by the correlations `G` with the grid point. -/
def radarCov [HasSqrt K] (radar : Nat → Bool) (D : Nat → Nat → K) (L sg sc : K) (ci G : Nat → K) {m : Nat} (sel : Fin m → Nat) (i j : Fin m) : K :=
  if i = j then (if radar (sel i) then sc * sc / G (sel i) else sg * sg * ci (sel i) / G (sel i))
  else sc * sc * radarCorr radar D L sel i j / (HasSqrt.sqrt (G (sel i)) * HasSqrt.sqrt (G (sel j)))

end

end Gridpp.Spec
