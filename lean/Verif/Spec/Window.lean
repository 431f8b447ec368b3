import Verif.Spec.Square

/-! # Time window (specification) -/

namespace Gridpp.Spec
variable {α : Type}

/-- The elements of the window of the given length around (or ending at) position `x`, clipped to the series. -/
def windowAt (before : Bool) (length x : Nat) (l : List α) : List α :=
  if before then slice (x + 1 - length) x l else slice (x - length / 2) (x + length / 2) l

/-- The unclipped window reaches beyond the series. -/
def overshoots (before : Bool) (length x n : Nat) : Prop :=
  if before then x + 1 < length else x < length / 2 ∨ n ≤ x + length / 2

instance (before : Bool) (length x n : Nat) : Decidable (overshoots before length x n) := by
  unfold overshoots; infer_instance

end Gridpp.Spec
