import Verif.Spec.ParameterText
import Verif.Spec.Calendar

/-! # Messages with the lowest pressure -/

namespace Gridpp.Spec

/-- `s` is the number `n`, written with `k` digits. -/
def FixedDigits (k n : Nat) (s : List Char) : Prop := s.length = k ∧ (∀ c ∈ s, Digit c) ∧ decimal s = n

/-- `s` is the day, hour and minute of the time `t`, a number of seconds since 1970, each with two digits. -/
def TimeStamp (t : Int) (s : List Char) : Prop :=
  ∃ (D : CalDate) (k : Int) (day hh mm ss : Nat) (s1 s2 s3 : List Char), D.Valid ∧ DaysLater unixEpoch k D ∧ D.day = day ∧ hh < 24 ∧ mm < 60 ∧
    ss < 60 ∧ t = 86400 * k + 3600 * hh + 60 * mm + ss ∧ FixedDigits 2 day s1 ∧ FixedDigits 2 hh s2 ∧ FixedDigits 2 mm s3 ∧ s = s1 ++ s2 ++ s3

/-- The line of the message for a station: the name, filled up with blanks to the width of the longest, and the pressure in hPa. -/
def StationLine (names : List (List Char)) (name : List Char) (hPa : Nat) (line : List Char) : Prop :=
  ∃ blanks ds, (∀ c ∈ blanks, c = ' ') ∧ (∀ n ∈ names, n.length ≤ (name ++ blanks).length) ∧ (∃ n ∈ names, n.length = (name ++ blanks).length) ∧
    FixedDigits 4 hPa ds ∧ line = "EST MIN QNH ".toList ++ (name ++ blanks) ++ ": ".toList ++ ds ++ " HPA\r\n".toList

end Gridpp.Spec
