import Verif.Base.Exp
import Mathlib.Algebra.Order.Floor.Ring
import Mathlib.Algebra.Ring.Parity

/-! The function `pow` of <math.h>. -/

set_option linter.unusedSectionVars false

namespace Gridpp
namespace Fl
variable {K : Type} [Field K] [LinearOrder K] [FloorRing K] [HasExp K]

/-- `pow` on finite values: `exp(y log x)` for a positive base; an integer exponent for a negative base, NaN for other
exponents; for the base 0 (taken to be `+0`) 0 or infinity. -/
def finPow (x y : K) : Fl K :=
  if y = 0 then fin 1
  else if 0 < x then fin (HasExp.exp (y * HasExp.log x))
  else if x = 0 then (if 0 < y then fin 0 else pinf)
  else if (⌊y⌋ : K) = y then fin ((if ⌊y⌋ % 2 = 0 then 1 else -1) * HasExp.exp (y * HasExp.log (-x)))
  else nan

/-- `pow(x, y)` (IEEE 754, C99 F.9.4.4). -/
def pow : Fl K → Fl K → Fl K
  | fin x, fin y => finPow x y
  | nan, fin y => if y = 0 then fin 1 else nan
  | pinf, fin y => if y = 0 then fin 1 else if 0 < y then pinf else fin 0
  | ninf, fin y =>
    if y = 0 then fin 1
    else if 0 < y then (if (⌊y⌋ : K) = y ∧ ⌊y⌋ % 2 = 1 then ninf else pinf)
    else fin 0
  | fin x, nan => if x = 1 then fin 1 else nan
  | _, nan => nan
  | nan, _ => nan
  | fin x, pinf => if |x| = 1 then fin 1 else if |x| < 1 then fin 0 else pinf
  | fin x, ninf => if |x| = 1 then fin 1 else if |x| < 1 then pinf else fin 0
  | _, pinf => pinf
  | _, ninf => fin 0

end Fl

section laws
variable {K : Type} [Field K] [LinearOrder K] [IsStrictOrderedRing K] [LawfulExp K]

theorem exp_strictMono {x y : K} (h : x < y) : (HasExp.exp x : K) < HasExp.exp y := by
  refine lt_of_le_of_ne (exp_mono h.le) (fun e => h.ne ?_)
  rw [← LawfulExp.log_exp x, e, LawfulExp.log_exp]

theorem log_strictMono {x y : K} (hx : 0 < x) (h : x < y) : (HasExp.log x : K) < HasExp.log y := by
  refine lt_of_le_of_ne (log_mono hx h.le) (fun e => h.ne ?_)
  rw [← LawfulExp.exp_log x hx, e, LawfulExp.exp_log y (hx.trans h)]

/-- A power with a positive base. -/
def realPow (x y : K) : K := HasExp.exp (y * HasExp.log x)

theorem realPow_pos (x y : K) : 0 < realPow x y := LawfulExp.exp_pos _

theorem realPow_inv {x y : K} (hx : 0 < x) (hy : y ≠ 0) : realPow (realPow x y) (1 / y) = x := by
  unfold realPow
  rw [LawfulExp.log_exp, ← mul_assoc, one_div_mul_cancel hy, one_mul, LawfulExp.exp_log x hx]

theorem realPow_lt {x x' y : K} (hx : 0 < x) (h : x < x') (hy : 0 < y) : realPow x y < realPow x' y :=
  exp_strictMono (mul_lt_mul_of_pos_left (log_strictMono hx h) hy)

theorem realPow_gt {x x' y : K} (hx : 0 < x) (h : x < x') (hy : y < 0) : realPow x' y < realPow x y :=
  exp_strictMono (mul_lt_mul_of_neg_left (log_strictMono hx h) hy)

theorem realPow_one (y : K) : realPow (1 : K) y = 1 := by
  unfold realPow; rw [log_one, mul_zero, LawfulExp.exp_zero]

variable [FloorRing K]

theorem pow_pos_base {x : K} (hx : 0 < x) (y : K) : Fl.pow (Fl.fin x) (Fl.fin y) = Fl.fin (realPow x y) := by
  show Fl.finPow x y = _
  unfold Fl.finPow
  split_ifs with h
  · rw [h]; unfold realPow; rw [zero_mul, LawfulExp.exp_zero]
  · rfl

theorem pow_zero_base {y : K} (hy : y ≠ 0) : Fl.pow (Fl.fin (0 : K)) (Fl.fin y) = if 0 < y then Fl.fin 0 else Fl.pinf := by
  show Fl.finPow 0 y = _
  unfold Fl.finPow
  rw [if_neg hy, if_neg (lt_irrefl _), if_pos rfl]

end laws
end Gridpp
