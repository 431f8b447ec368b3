import Mathlib.Data.List.Basic

/-!
# Neighbourhood of a grid cell (specification)
-/

namespace Gridpp.Spec
variable {α : Type}

/-- The elements with index in `[lo, hi]` (clipped to the list). -/
def slice (lo hi : Nat) (l : List α) : List α := (l.take (hi + 1)).drop lo

/-- The cells `(i, j)` with `|i - y| ≤ hw` and `|j - x| ≤ hw` that exist in the field. -/
def square (a : List (List α)) (hw y x : Nat) : List α :=
  (slice (y - hw) (y + hw) a).flatMap (slice (x - hw) (x + hw))

/-- Membership in a slice is membership at an index in the range. -/
theorem mem_slice {lo hi : Nat} {l : List α} {v : α} :
    v ∈ slice lo hi l ↔ ∃ i, lo ≤ i ∧ i ≤ hi ∧ l[i]? = some v := by
  unfold slice
  rw [List.mem_iff_getElem?]
  constructor
  · rintro ⟨k, hk⟩
    rw [List.getElem?_drop, List.getElem?_take] at hk
    split at hk
    · exact ⟨lo + k, by omega, by omega, hk⟩
    · cases hk
  · rintro ⟨i, h1, h2, h3⟩
    refine ⟨i - lo, ?_⟩
    rw [List.getElem?_drop, List.getElem?_take, if_pos (by omega)]
    have : lo + (i - lo) = i := by omega
    rw [this, h3]

end Gridpp.Spec
