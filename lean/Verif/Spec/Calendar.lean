import Mathlib.Data.Int.Basic
import Mathlib.Logic.Function.Iterate

/-! # The calendar -/

namespace Gridpp.Spec

/-- A date of the (proleptic) Gregorian calendar. -/
structure CalDate where
  year : Int
  month : Int
  day : Int
  deriving DecidableEq, Repr

/-- Every fourth year is a leap year, but of the centuries only every fourth. -/
def Leap (y : Int) : Prop := y % 4 = 0 ∧ (y % 100 ≠ 0 ∨ y % 400 = 0)

instance (y : Int) : Decidable (Leap y) := by unfold Leap; infer_instance

/-- Number of days of a month. -/
def monthDays (y m : Int) : Int :=
  if m = 2 then (if Leap y then 29 else 28) else if m = 4 ∨ m = 6 ∨ m = 9 ∨ m = 11 then 30 else 31

/-- The date exists. -/
structure CalDate.Valid (D : CalDate) : Prop where
  month_pos : 1 ≤ D.month
  month_le : D.month ≤ 12
  day_pos : 1 ≤ D.day
  day_le : D.day ≤ monthDays D.year D.month

/-- The next day. -/
def CalDate.next (D : CalDate) : CalDate :=
  if D.day < monthDays D.year D.month then ⟨D.year, D.month, D.day + 1⟩
  else if D.month < 12 then ⟨D.year, D.month + 1, 1⟩
  else ⟨D.year + 1, 1, 1⟩

/-- `D'` is `k` days after `D` (before it for a negative `k`). -/
def DaysLater (D : CalDate) (k : Int) (D' : CalDate) : Prop :=
  (∃ n : Nat, k = n ∧ CalDate.next^[n] D = D') ∨ (∃ n : Nat, k = -n ∧ CalDate.next^[n] D' = D)

/-- The date as a number YYYYMMDD. -/
def CalDate.number (D : CalDate) : Int := D.year * 10000 + D.month * 100 + D.day

/-- The beginning of unix time. -/
def unixEpoch : CalDate := ⟨1970, 1, 1⟩

end Gridpp.Spec
