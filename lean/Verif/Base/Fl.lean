import Mathlib.Algebra.Order.Field.Basic
import Mathlib.Algebra.Order.Floor.Ring
import Mathlib.Tactic.Linarith
import Mathlib.Tactic.Ring
import Mathlib.Tactic.FieldSimp
import Mathlib.Tactic.NormNum
import Mathlib.Tactic.Positivity

/-!
# Floating point values

`Fl K` stands for the C++ types `float` and `double` (include/gridpp.h:24-42). Finite values are elements of an
ordered field `K` and arithmetic on them is exact: rounding, overflow, denormals and signed zero are *not*
modelled. NaN and the infinities follow IEEE 754.
-/

set_option linter.unusedSectionVars false

namespace Gridpp

/-- A C++ floating point value (exact arithmetic on finite values). -/
inductive Fl (K : Type) where
  | nan
  | pinf
  | ninf
  | fin (q : K)
  deriving DecidableEq

/-- Square root on finite values: `sqrt` of <math.h>. A parameter so that the model can be used on `ℚ` as well. -/
class HasSqrt (K : Type) where
  sqrt : K → K

/-- What is assumed of the square root in statements that need it. Holds for `ℝ`. -/
class LawfulSqrt (K : Type) [Field K] [LinearOrder K] extends HasSqrt K where
  sqrt_nonneg : ∀ x : K, 0 ≤ x → 0 ≤ sqrt x
  sqrt_mul_self : ∀ x : K, 0 ≤ x → sqrt x * sqrt x = x

namespace Fl

variable {K : Type}

/-- `gridpp::MV = NAN` (include/gridpp.h:49). -/
abbrev MV : Fl K := nan

/-- `gridpp::is_valid` (src/api/util.cpp:16-18): not NaN, not infinite, and `!= MV`, which is true of every
value because `MV` is NaN. -/
def isValid : Fl K → Bool
  | fin _ => true
  | _ => false

section
variable [Field K] [LinearOrder K]

/-- Infinity with the sign of `q`, NaN for `0` (used for `inf * q` and `q / 0`). -/
def infOfSign (q : K) : Fl K := if 0 < q then pinf else if q < 0 then ninf else nan

/-- IEEE addition. -/
def add : Fl K → Fl K → Fl K
  | nan, _ => nan
  | _, nan => nan
  | pinf, ninf => nan
  | ninf, pinf => nan
  | pinf, _ => pinf
  | ninf, _ => ninf
  | fin _, pinf => pinf
  | fin _, ninf => ninf
  | fin a, fin b => fin (a + b)

/-- IEEE negation. -/
def neg : Fl K → Fl K
  | nan => nan
  | pinf => ninf
  | ninf => pinf
  | fin a => fin (-a)

/-- IEEE subtraction. -/
def sub (a b : Fl K) : Fl K := add a (neg b)

/-- IEEE multiplication. -/
def mul : Fl K → Fl K → Fl K
  | nan, _ => nan
  | _, nan => nan
  | pinf, pinf => pinf
  | pinf, ninf => ninf
  | ninf, pinf => ninf
  | ninf, ninf => pinf
  | pinf, fin b => infOfSign b
  | ninf, fin b => infOfSign (-b)
  | fin a, pinf => infOfSign a
  | fin a, ninf => infOfSign (-a)
  | fin a, fin b => fin (a * b)

/-- IEEE division; a zero divisor is taken to be `+0`. -/
def div : Fl K → Fl K → Fl K
  | nan, _ => nan
  | _, nan => nan
  | pinf, pinf => nan
  | pinf, ninf => nan
  | ninf, pinf => nan
  | ninf, ninf => nan
  | pinf, fin b => if b < 0 then ninf else pinf
  | ninf, fin b => if b < 0 then pinf else ninf
  | fin _, pinf => fin 0
  | fin _, ninf => fin 0
  | fin a, fin b => if b = 0 then infOfSign a else fin (a / b)

instance : Add (Fl K) := ⟨add⟩
instance : Neg (Fl K) := ⟨neg⟩
instance : Sub (Fl K) := ⟨sub⟩
instance : Mul (Fl K) := ⟨mul⟩
instance : Div (Fl K) := ⟨div⟩
instance : Zero (Fl K) := ⟨fin 0⟩
instance : One (Fl K) := ⟨fin 1⟩

/-- `a < b` in C++. -/
def lt : Fl K → Fl K → Bool
  | nan, _ => false
  | _, nan => false
  | pinf, _ => false
  | ninf, ninf => false
  | ninf, _ => true
  | fin _, pinf => true
  | fin _, ninf => false
  | fin a, fin b => decide (a < b)

/-- `a == b` in C++. -/
def feq : Fl K → Fl K → Bool
  | pinf, pinf => true
  | ninf, ninf => true
  | fin a, fin b => decide (a = b)
  | _, _ => false

/-- `a <= b` in C++. -/
def le (a b : Fl K) : Bool := lt a b || feq a b

/-- `a > b`. -/
def gt (a b : Fl K) : Bool := lt b a
/-- `a >= b`. -/
def ge (a b : Fl K) : Bool := le b a
/-- `a != b`. -/
def fne (a b : Fl K) : Bool := !feq a b

/-- `sqrt(a)`: NaN for negative arguments. -/
def sqrt [HasSqrt K] : Fl K → Fl K
  | nan => nan
  | pinf => pinf
  | ninf => nan
  | fin a => if a < 0 then nan else fin (HasSqrt.sqrt a)

/-- `fabs(a)`. -/
def abs : Fl K → Fl K
  | nan => nan
  | pinf => pinf
  | ninf => pinf
  | fin a => fin |a|

/-! ### Evaluation lemmas -/

@[simp] theorem zero_def : (0 : Fl K) = fin 0 := rfl
@[simp] theorem one_def : (1 : Fl K) = fin 1 := rfl
@[simp] theorem isValid_fin (q : K) : isValid (fin q) = true := rfl
@[simp] theorem isValid_nan : isValid (nan : Fl K) = false := rfl
@[simp] theorem isValid_pinf : isValid (pinf : Fl K) = false := rfl
@[simp] theorem isValid_ninf : isValid (ninf : Fl K) = false := rfl
@[simp] theorem fin_add (a b : K) : (fin a + fin b : Fl K) = fin (a + b) := rfl
@[simp] theorem fin_neg (a : K) : (-(fin a) : Fl K) = fin (-a) := rfl
@[simp] theorem fin_sub (a b : K) : (fin a - fin b : Fl K) = fin (a - b) := by
  show fin (a + -b) = _
  rw [sub_eq_add_neg]
@[simp] theorem fin_mul (a b : K) : (fin a * fin b : Fl K) = fin (a * b) := rfl
theorem fin_div (a b : K) : (fin a / fin b : Fl K) = if b = 0 then infOfSign a else fin (a / b) := rfl
@[simp] theorem fin_div_of_ne (a : K) {b : K} (h : b ≠ 0) : (fin a / fin b : Fl K) = fin (a / b) := by
  rw [fin_div, if_neg h]
@[simp] theorem nan_add (a : Fl K) : nan + a = nan := by cases a <;> rfl
@[simp] theorem add_nan (a : Fl K) : a + nan = nan := by cases a <;> rfl
@[simp] theorem nan_sub (a : Fl K) : nan - a = nan := by cases a <;> rfl
@[simp] theorem sub_nan (a : Fl K) : a - nan = nan := by cases a <;> rfl
@[simp] theorem nan_mul (a : Fl K) : nan * a = nan := by cases a <;> rfl
@[simp] theorem mul_nan (a : Fl K) : a * nan = nan := by cases a <;> rfl
@[simp] theorem nan_div (a : Fl K) : nan / a = nan := by cases a <;> rfl
@[simp] theorem div_nan (a : Fl K) : a / nan = nan := by cases a <;> rfl
@[simp] theorem lt_fin (a b : K) : lt (fin a) (fin b) = decide (a < b) := rfl
@[simp] theorem feq_fin (a b : K) : feq (fin a) (fin b) = decide (a = b) := rfl
@[simp] theorem le_fin (a b : K) : le (fin a) (fin b) = decide (a ≤ b) := by
  simp only [le, lt_fin, feq_fin, ← Bool.decide_or]
  congr 1
  exact propext le_iff_lt_or_eq.symm
@[simp] theorem gt_fin (a b : K) : gt (fin a) (fin b) = decide (b < a) := rfl
@[simp] theorem ge_fin (a b : K) : ge (fin a) (fin b) = decide (b ≤ a) := by simp [ge]
@[simp] theorem fne_fin (a b : K) : fne (fin a) (fin b) = !decide (a = b) := rfl
@[simp] theorem lt_nan_left (a : Fl K) : lt nan a = false := by cases a <;> rfl
@[simp] theorem lt_nan_right (a : Fl K) : lt a nan = false := by cases a <;> rfl
@[simp] theorem feq_nan_left (a : Fl K) : feq nan a = false := by cases a <;> rfl
@[simp] theorem feq_nan_right (a : Fl K) : feq a nan = false := by cases a <;> rfl
@[simp] theorem le_nan_left (a : Fl K) : le nan a = false := by simp [le]
@[simp] theorem le_nan_right (a : Fl K) : le a nan = false := by simp [le]
@[simp] theorem gt_nan_left (a : Fl K) : gt nan a = false := by simp [gt]
@[simp] theorem gt_nan_right (a : Fl K) : gt a nan = false := by simp [gt]
@[simp] theorem ge_nan_left (a : Fl K) : ge nan a = false := by simp [ge]
@[simp] theorem ge_nan_right (a : Fl K) : ge a nan = false := by simp [ge]
@[simp] theorem fne_nan_left (a : Fl K) : fne nan a = true := by simp [fne]
@[simp] theorem fne_nan_right (a : Fl K) : fne a nan = true := by simp [fne]
@[simp] theorem sqrt_fin [HasSqrt K] {a : K} (h : 0 ≤ a) : sqrt (fin a) = fin (HasSqrt.sqrt a) := by
  simp [sqrt, not_lt.mpr h]
@[simp] theorem sqrt_nan [HasSqrt K] : sqrt (nan : Fl K) = nan := rfl

end

theorem isValid_iff {v : Fl K} : isValid v = true ↔ ∃ q, v = fin q := by
  cases v <;> simp [isValid]

theorem exists_fin_of_valid {v : Fl K} (h : isValid v = true) : ∃ q, v = fin q := isValid_iff.mp h

theorem fin_inj {a b : K} : (fin a = fin b) ↔ a = b := by
  constructor
  · intro h; injection h
  · rintro rfl; rfl

/-- The finite values of a list, in order (what a loop with `if(is_valid(v))` sees). -/
def vals : List (Fl K) → List K
  | [] => []
  | fin q :: t => q :: vals t
  | _ :: t => vals t

@[simp] theorem vals_nil : vals ([] : List (Fl K)) = [] := rfl
@[simp] theorem vals_fin (q : K) (t) : vals (fin q :: t) = q :: vals t := rfl
@[simp] theorem vals_nan (t : List (Fl K)) : vals (nan :: t) = vals t := rfl
@[simp] theorem vals_pinf (t : List (Fl K)) : vals (pinf :: t) = vals t := rfl
@[simp] theorem vals_ninf (t : List (Fl K)) : vals (ninf :: t) = vals t := rfl

theorem vals_append (a b : List (Fl K)) : vals (a ++ b) = vals a ++ vals b := by
  induction a with
  | nil => rfl
  | cons h t ih => cases h <;> simp [ih]

theorem vals_map_fin (l : List K) : vals (l.map fin) = l := by
  induction l with
  | nil => rfl
  | cons h t ih => simp [ih]

theorem mem_vals {l : List (Fl K)} {q : K} : q ∈ vals l ↔ fin q ∈ l := by
  induction l with
  | nil => simp
  | cons h t ih => cases h <;> simp [ih]

theorem filter_isValid (l : List (Fl K)) : l.filter isValid = (vals l).map fin := by
  induction l with
  | nil => rfl
  | cons h t ih => cases h <;> simp [ih, List.filter_cons]

theorem vals_filter_isValid (l : List (Fl K)) : vals (l.filter isValid) = vals l := by
  rw [filter_isValid, vals_map_fin]

theorem vals_perm {a b : List (Fl K)} (h : a.Perm b) : (vals a).Perm (vals b) := by
  induction h with
  | nil => exact .nil
  | cons x _ ih => cases x <;> simp [ih]
  | swap x y l => cases x <;> cases y <;> simp [List.Perm.swap]
  | trans _ _ h1 h2 => exact h1.trans h2

end Fl
end Gridpp
