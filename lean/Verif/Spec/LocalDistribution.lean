import Verif.Base.Exp
import Mathlib.Algebra.Order.Floor.Ring
import Mathlib.Algebra.BigOperators.Group.List.Basic

/-! Specification of the local distribution correction of one value, in terms of numbers only. -/

namespace Gridpp.Spec

section
variable {K : Type} [Field K] [LinearOrder K] [IsStrictOrderedRing K] [FloorRing K]

/-- `kept` are the values (with their weights) from position `⌊n mn⌋` to before position `⌊n mx⌋` in increasing order. -/
def Kept (l : List (K × K)) (mn mx : K) (kept : List (K × K)) : Prop :=
  ∃ l' : List (K × K), l'.Perm l ∧ l'.Pairwise (fun a b => a.1 ≤ b.1) ∧
    kept = (l'.take ⌊(l.length : K) * mx⌋.toNat).drop ⌊(l.length : K) * mn⌋.toNat

/-- The largest kept value, 0 if none is kept. -/
def top (kept : List (K × K)) : K := (kept.map Prod.fst).getLastD 0

/-- The curve through (0, 0) and the kept values: their levels run from `mn` to `mx` in proportion to the accumulated weight. -/
def levels (kept : List (K × K)) (mn mx : K) : List K :=
  0 :: (List.range kept.length).map fun k =>
    mn + ((kept.take (k + 1)).map Prod.snd).sum / (kept.map Prod.snd).sum * (mx - mn)

/-- `r` is read off the curve `(xs[i], ys[i])` at `x`, between two different neighbouring points or at a point whose `xs` is
met only once, and within the range of `ys` in any case. -/
def ReadOff (xs ys : List K) (x r : K) : Prop :=
  (∀ (i : Nat) x0 x1 y0 y1, xs[i]? = some x0 → xs[i + 1]? = some x1 → ys[i]? = some y0 → ys[i + 1]? = some y1 → x0 < x → x < x1 →
    r = y0 + (y1 - y0) * ((x - x0) / (x1 - x0))) ∧
  (∀ i : Nat, xs[i]? = some x → (∀ k : Nat, xs[k]? = some x → k = i) → ys[i]? = some r) ∧
  (∀ lo hi, (∀ y ∈ ys, lo ≤ y ∧ y ≤ hi) → lo ≤ r ∧ r ≤ hi)

/-- The correction of background value `b` by observations `obs` and background values `fc` at them, each with its weight. -/
def IsCorrected [HasExp K] (obs fc : List (K × K)) (mn mx : K) (minPoints : Int) (b v : K) : Prop :=
  ((obs.length : Int) < minPoints → v = b) ∧
  (minPoints ≤ (obs.length : Int) → ∃ ko kf, Kept obs mn mx ko ∧ Kept fc mn mx kf ∧
    (b < 1 / 100 → v = 0) ∧
    (1 / 100 ≤ b → top ko ≤ 0 → ((b < 3 * top kf ∨ b < 1 / 10) → v = 0) ∧ (¬ (b < 3 * top kf ∨ b < 1 / 10) → v = b)) ∧
    (1 / 100 ≤ b → 0 < top ko → top kf ≤ b → v = b + (top ko - top kf)) ∧
    (1 / 100 ≤ b → 0 < top ko → b < top kf → ∃ q m, ReadOff (0 :: kf.map Prod.fst) (levels kf mn mx) b q ∧
      ReadOff (levels ko mn mx) (0 :: ko.map Prod.fst) q m ∧ 0 ≤ m ∧ m ≤ top ko ∧
      v = (1 - HasExp.exp (-(obs.map Prod.snd).sum / 100)) * m + HasExp.exp (-(obs.map Prod.snd).sum / 100) * b))

end
end Gridpp.Spec
