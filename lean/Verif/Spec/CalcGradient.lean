import Verif.Base.Fl
import Verif.Spec.Square
import Verif.Spec.Stats

/-! Pairs of values in a window and their regression line (specification). -/

namespace Gridpp.Spec
open Fl
variable {K : Type}

/-- The pairs of which both values are valid, in order. -/
def bothValid : List (Fl K × Fl K) → List (K × K)
  | [] => []
  | (fin b, fin v) :: t => (b, v) :: bothValid t
  | _ :: t => bothValid t

/-- The valid pairs of two fields in the square around a cell. -/
def windowPairs (base values : List (List (Fl K))) (hw y x : Nat) : List (K × K) :=
  bothValid (square (List.zipWith List.zip base values) hw y x)

variable [Field K]

/-- Covariance: average product of the deviations from the means. -/
def covariance (ps : List (K × K)) : K :=
  mean (ps.map fun p => (p.1 - mean (ps.map Prod.fst)) * (p.2 - mean (ps.map Prod.snd)))

/-- Slope of the least-squares line. -/
def slope (ps : List (K × K)) : K := covariance ps / variance (ps.map Prod.fst)

variable [LinearOrder K]

/-- Gradient between the first pair with the largest and the first pair with the smallest base. With fewer than `n` pairs, or none, or a
range of the base of at most `minRange`, the default `d`. NaN if the base is constant and `minRange` (missing) does not exclude it. -/
def IsMinMaxGradient (P : List (K × K)) (n : Nat) (minRange d v : Fl K) : Prop :=
  (P.length < n ∨ P = [] → v = d) ∧
  (n ≤ P.length → P ≠ [] → ∃ b1 v1 b0 v0,
    P.find? (fun p => decide (p.1 = b1)) = some (b1, v1) ∧ (∀ p ∈ P, p.1 ≤ b1) ∧
    P.find? (fun p => decide (p.1 = b0)) = some (b0, v0) ∧ (∀ p ∈ P, b0 ≤ p.1) ∧
    ((fin (b1 - b0)).le minRange = true → v = d) ∧
    ((fin (b1 - b0)).le minRange = false → b0 < b1 → v = fin ((v1 - v0) / (b1 - b0))) ∧
    ((fin (b1 - b0)).le minRange = false → b0 = b1 → v = nan))

/-- Slope of the least-squares line if there are at least `n` pairs, the base is not constant and its standard deviation is at least
`minRange` (if given); otherwise the default `d`. -/
def IsRegressionGradient (P : List (K × K)) (n : Nat) (minRange d v : Fl K) : Prop :=
  ((n ≤ P.length ∧ variance (P.map Prod.fst) ≠ 0 ∧ ∀ r, minRange = fin r → r ^ 2 ≤ variance (P.map Prod.fst)) → v = fin (slope P)) ∧
  (¬ (n ≤ P.length ∧ variance (P.map Prod.fst) ≠ 0 ∧ ∀ r, minRange = fin r → r ^ 2 ≤ variance (P.map Prod.fst)) → v = d)

end Gridpp.Spec
