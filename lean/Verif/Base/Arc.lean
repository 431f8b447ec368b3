import Verif.Model.Gridding
import Verif.Base.Trig
import Mathlib.Analysis.SpecialFunctions.Trigonometric.Inverse

/-! The great-circle distance over `ℝ` (kdtree.cpp:121-131), and a stand-in over `ℚ` for examples. -/

namespace Gridpp

/-- What theorems assume of the great-circle distance. -/
class LawfulArc (K : Type) [Field K] [LinearOrder K] extends HasArc K where
  arc_nonneg : ∀ a b c d : K, 0 ≤ arc a b c d
  arc_comm : ∀ a b c d : K, arc a b c d = arc c d a b

/-- The argument of `acos` (kdtree.cpp:127-129). -/
noncomputable def arcRatio (lat1 lon1 lat2 lon2 : ℝ) : ℝ :=
  let lat1r := Real.pi / 180 * lat1
  let lat2r := Real.pi / 180 * lat2
  let lon1r := Real.pi / 180 * lon1
  let lon2r := Real.pi / 180 * lon2
  Real.cos lat1r * Real.cos lon1r * Real.cos lat2r * Real.cos lon2r +
    Real.cos lat1r * Real.sin lon1r * Real.cos lat2r * Real.sin lon2r + Real.sin lat1r * Real.sin lat2r

/-- kdtree.cpp:121-131. -/
noncomputable instance : LawfulArc ℝ where
  arc lat1 lon1 lat2 lon2 := Real.arccos (arcRatio lat1 lon1 lat2 lon2) * 6378137
  arc_nonneg _ _ _ _ := mul_nonneg (Real.arccos_nonneg _) (by norm_num)
  arc_comm a b c d := by
    congr 2
    unfold arcRatio
    simp only
    ring

/-- Not the great-circle distance: a stand-in, only used in concrete examples. -/
instance : LawfulArc ℚ where
  arc a b c d := |a - c| + |b - d|
  arc_nonneg _ _ _ _ := add_nonneg (abs_nonneg _) (abs_nonneg _)
  arc_comm a b c d := by rw [abs_sub_comm a c, abs_sub_comm b d]

end Gridpp
