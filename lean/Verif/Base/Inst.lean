import Verif.Base.Fl
import Mathlib.Analysis.Real.Sqrt
import Mathlib.Data.Rat.Sqrt
import Mathlib.Data.Rat.Floor
import Mathlib.Algebra.Order.Ring.Rat
import Mathlib.Algebra.Field.Rat

/-! Square roots on `ℝ` (lawful) and on `ℚ` (exact on squares of rationals, used in concrete examples only). -/

namespace Gridpp

noncomputable instance : LawfulSqrt ℝ where
  sqrt := Real.sqrt
  sqrt_nonneg := fun x _ => Real.sqrt_nonneg x
  sqrt_mul_self := fun _ h => Real.mul_self_sqrt h

instance : HasSqrt ℚ where
  sqrt := Rat.sqrt

end Gridpp
