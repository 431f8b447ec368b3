import Verif.Base.Exp
import Verif.Spec.CalcGradient

/-! # Specifications for the gradient downscaler of the client -/

namespace Gridpp.Spec
open Fl

variable {K : Type} [Field K] [LinearOrder K]

/-- The pair of elevation and value (or its logarithm) that a grid point gives to the regression. It gives none if one of them is missing
(or has no logarithm), or if its land area fraction is known to be below `m`. -/
def usable [HasExp K] (log : Bool) (m : K) : Fl K × Fl K × Fl K → Option (K × K)
  | (fin x, fin y, l) =>
    if x ≠ -999 ∧ (if log then 0 < y ∧ HasExp.log y ≠ -999 else y ≠ -999) ∧ (∀ q ∈ Fl.vals [l], q ≠ -999 → m ≤ q) then
      some (x, if log then HasExp.log y else y)
    else none
  | _ => none

/-- The pairs are enough for a regression: at least `n`, whose elevations differ by at least `d` somewhere and are not all the same. -/
def Fits (n : Int) (d : K) (ps : List (K × K)) : Prop :=
  n ≤ (ps.length : Int) ∧ (∃ p ∈ ps, ∃ q ∈ ps, d ≤ q.1 - p.1) ∧ variance (ps.map Prod.fst) ≠ 0

/-- `w` respects those of the bounds that are given. -/
def InBounds (lo hi : Fl K) (w : K) : Prop :=
  (∀ m, lo = fin m → m ≠ -999 → m ≤ w) ∧ (∀ m, hi = fin m → m ≠ -999 → w ≤ m)

/-- `v` is the number closest to `q` that respects the bounds. -/
def Bounded (lo hi : Fl K) (q v : K) : Prop :=
  (∃ w, InBounds lo hi w) → InBounds lo hi v ∧ ∀ w, InBounds lo hi w → |v - q| ≤ |w - q|

/-- The number in a `Fl`, 0 if there is none. -/
def number : Fl K → K
  | fin q => q
  | _ => 0

/-- A number that does not stand for a missing value. -/
def given : Fl K → Bool
  | fin q => decide (q ≠ -999)
  | _ => false

/-- Of the triples of land area fraction, elevation and value those with a fraction and a value. -/
def withFraction (l : List (Fl K × Fl K × Fl K)) : List (Fl K × Fl K × Fl K) := l.filter fun a => given a.1 && given a.2.2

/-- The gradient `g` that a neighbourhood gives, if any: between a point with the least and a point with the largest fraction, the value of the
latter moved to the elevation of the former with the elevation gradient `eg`. The fractions have to differ by at least `d`, both elevations
have to be known, and at least the share `f` of the points has to be sea. -/
def FractionRule (d f eg : K) (l : List (Fl K × Fl K × Fl K)) (g : Option K) : Prop :=
  (withFraction l = [] → g = none) ∧
  (withFraction l ≠ [] → ∃ lo ∈ withFraction l, ∃ hi ∈ withFraction l,
    (∀ a ∈ withFraction l, number lo.1 ≤ number a.1 ∧ number a.1 ≤ number hi.1) ∧
    ((d ≤ number hi.1 - number lo.1 ∧ given lo.2.1 = true ∧ given hi.2.1 = true ∧
        f ≤ (((withFraction l).filter fun a => decide (number a.1 < 1 / 2)).length : K) / ((withFraction l).length : K)) →
      g = some ((number hi.2.2 - eg * (number hi.2.1 - number lo.2.1) - number lo.2.2) / (number hi.1 - number lo.1))) ∧
    (¬ (d ≤ number hi.1 - number lo.1 ∧ given lo.2.1 = true ∧ given hi.2.1 = true ∧
        f ≤ (((withFraction l).filter fun a => decide (number a.1 < 1 / 2)).length : K) / ((withFraction l).length : K)) →
      g = none))

/-- The gradients that there are, with their weights. -/
def weighted (gs : List (Option K)) (ws : List K) : List (K × K) := (gs.zip ws).filterMap fun p => p.1.map fun g => (g, p.2)

/-- The number that is given, if any. -/
def known (v : Fl K) : Option K := if given v then some (number v) else none

/-- The points of a grid with `Y` rows and `X` columns that are at most `R` rows and columns from `i`, `j`, each once. -/
def Around (Y X : Nat) (R : Int) (i j : Nat) (places : List (Nat × Nat)) : Prop :=
  places.Nodup ∧ ∀ p : Nat × Nat, p ∈ places ↔ p.1 < Y ∧ p.2 < X ∧ |(p.1 : Int) - i| ≤ R ∧ |(p.2 : Int) - j| ≤ R

/-- The base value `b` moved from elevation `z0` to `z` with the gradient `eg`. -/
def liftedBy [HasExp K] (log : Bool) (b eg : K) : Option K → Option K → K
  | some z, some z0 => if log then b * HasExp.exp ((z - z0) * eg) else b + (z - z0) * eg
  | _, _ => b

/-- The change from the fraction `l0` to `l` with the gradient `lg`. -/
def coastal : Option K → Option K → Option K → K
  | some l, some l0, some lg => (l - l0) * lg
  | _, _, _ => 0

/-- The raw value if it respects the bounds, otherwise the base value. -/
def OrBase (lo hi : Fl K) (b raw v : K) : Prop := (InBounds lo hi raw → v = raw) ∧ (¬ InBounds lo hi raw → v = b)

end Gridpp.Spec
