import Verif.Base.Inst
import Mathlib.Analysis.SpecialFunctions.Exp
import Mathlib.Analysis.SpecialFunctions.Log.Basic
import Mathlib.Analysis.SpecialFunctions.Exponential

/-! The exponential function and the logarithm of <math.h>. -/

set_option linter.unusedSectionVars false

namespace Gridpp

/-- `exp` and `log` on finite values; a parameter so that the model can be used on `ℚ` as well. -/
class HasExp (K : Type) where
  exp : K → K
  log : K → K

/-- What is assumed of them in statements that need it. Holds for `ℝ`. -/
class LawfulExp (K : Type) [Field K] [LinearOrder K] extends HasExp K where
  exp_zero : exp 0 = 1
  exp_add : ∀ x y : K, exp (x + y) = exp x * exp y
  exp_pos : ∀ x : K, 0 < exp x
  add_one_le_exp : ∀ x : K, x + 1 ≤ exp x
  quadratic_le_exp : ∀ x : K, 0 ≤ x → 1 + x + x * x / 2 ≤ exp x
  log_exp : ∀ x : K, log (exp x) = x
  exp_log : ∀ x : K, 0 < x → exp (log x) = x

noncomputable instance : LawfulExp ℝ where
  exp := Real.exp
  log := Real.log
  exp_zero := Real.exp_zero
  exp_add := Real.exp_add
  exp_pos := Real.exp_pos
  add_one_le_exp := Real.add_one_le_exp
  quadratic_le_exp x h := by
    have := Real.quadratic_le_exp_of_nonneg h
    rw [pow_two] at this
    exact this
  log_exp := Real.log_exp
  exp_log _ h := Real.exp_log h

/-- Not the exponential function: a stand-in, only used in concrete examples that do not depend on it. -/
instance : HasExp ℚ where
  exp x := 1 + x
  log x := x - 1

namespace Fl
variable {K : Type} [Field K] [LinearOrder K]

/-- `exp(a)`. -/
def exp [HasExp K] : Fl K → Fl K
  | nan => nan
  | pinf => pinf
  | ninf => fin 0
  | fin a => fin (HasExp.exp a)

/-- `log(a)`: minus infinity for 0, NaN for negative arguments. -/
def log [HasExp K] : Fl K → Fl K
  | nan => nan
  | pinf => pinf
  | ninf => nan
  | fin a => if 0 < a then fin (HasExp.log a) else if a < 0 then nan else ninf

end Fl

section laws
variable {K : Type} [Field K] [LinearOrder K] [IsStrictOrderedRing K] [LawfulExp K]

theorem exp_neg_mul (x : K) : HasExp.exp (-x) * HasExp.exp x = 1 := by
  rw [← LawfulExp.exp_add, neg_add_cancel, LawfulExp.exp_zero]

theorem exp_mono {x y : K} (h : x ≤ y) : HasExp.exp x ≤ HasExp.exp y := by
  have e : y = x + (y - x) := by ring
  rw [e, LawfulExp.exp_add]
  have h1 := LawfulExp.add_one_le_exp (y - x)
  have h2 := LawfulExp.exp_pos x
  nlinarith

theorem exp_le_one {x : K} (h : x ≤ 0) : HasExp.exp x ≤ 1 := by
  have := exp_mono h
  rwa [LawfulExp.exp_zero] at this

theorem log_one : HasExp.log (1 : K) = 0 := by
  rw [← LawfulExp.exp_zero, LawfulExp.log_exp]

theorem log_mono {x y : K} (hx : 0 < x) (h : x ≤ y) : HasExp.log x ≤ HasExp.log y := by
  by_contra hc
  have hc := lt_of_not_ge hc
  have e1 := LawfulExp.exp_log x hx
  have e2 := LawfulExp.exp_log y (lt_of_lt_of_le hx h)
  have h1 := exp_mono (le_of_lt hc)
  rw [e1, e2] at h1
  have : x = y := le_antisymm h h1
  rw [this] at hc
  exact lt_irrefl _ hc

theorem log_nonpos {x : K} (hx : 0 < x) (h : x ≤ 1) : HasExp.log x ≤ 0 := by
  have := log_mono hx h
  rwa [log_one] at this

end laws
end Gridpp
