import Verif.Model.Util

/-! # src/client/Util.cpp: dates and times

`boost::gregorian::date` is not part of the repository. It is modelled by the algorithms of `gregorian_calendar_base` of boost:
`day_number`, `from_day_number` and the checks of `greg_year`, `greg_month` and `greg_day`, whose values are `unsigned short`. A
check that fails throws an exception derived from `std::out_of_range`. Day numbers are not bounded, and the special values of boost
(not a date, infinity) are not modelled. -/

namespace Gridpp.Client
open Res

/-- `gregorian_calendar_base::is_leap_year`. -/
def isLeapYear (y : Int) : Bool := y % 4 = 0 && (!(y % 100 = 0) || y % 400 = 0)

/-- `gregorian_calendar_base::end_of_month_day`. -/
def endOfMonth (y m : Int) : Int :=
  if m = 2 then (if isLeapYear y then 29 else 28) else if m = 4 ∨ m = 6 ∨ m = 9 ∨ m = 11 then 30 else 31

/-- `gregorian_calendar_base::day_number`: the julian day number. -/
def dayNumber (year month day : Int) : Int :=
  let a := (14 - month) / 12
  let y := year + 4800 - a
  let m := month + 12 * a - 3
  day + ((153 * m + 2) / 5) + 365 * y + (y / 4) - (y / 100) + (y / 400) - 32045

/-- `boost::gregorian::date(year, month, day)`: the day number, as used at src/client/Util.cpp:165, :188-189 and :229. -/
def makeDate (year month day : Int) : Res Int :=
  let y := year % 65536
  let m := month % 65536
  let d := day % 65536
  if y < 1400 ∨ 9999 < y ∨ m < 1 ∨ 12 < m ∨ d < 1 ∨ 31 < d then throw .logicError
  else if endOfMonth y m < d then throw .logicError
  else ok (dayNumber y m d)

/-- `year()`, `month()` and `day()` of a date (`gregorian_calendar_base::from_day_number`), as used at src/client/Util.cpp:169 and
:232-234; `greg_year` checks the range. -/
def fromDayNumber (n : Int) : Res (Int × Int × Int) :=
  let a := n + 32044
  let b := (4 * a + 3) / 146097
  let c := a - (146097 * b) / 4
  let d := (4 * c + 3) / 1461
  let e := c - (1461 * d) / 4
  let m := (5 * e + 2) / 153
  let day := e - ((153 * m + 2) / 5) + 1
  let month := m + 3 - 12 * (m / 10)
  let year := (100 * b + d - 4800 + (m / 10)) % 65536
  if year < 1400 ∨ 9999 < year then throw .logicError else ok (year, month, day)

/-- `Util::getDate` (src/client/Util.cpp:164-170). -/
def getDate (unixTime : Int) : Res Int := do
  let epoch ← makeDate 1970 1 1
  let newDate ← fromDayNumber (epoch + unixTime.tdiv 86400)
  ok (newDate.1 * 10000 + newDate.2.1 * 100 + newDate.2.2)

/-- `Util::getTime` (src/client/Util.cpp:171-178). -/
def getTime (unixTime : Int) : Int :=
  let numSeconds := unixTime.tmod 86400
  let hh := numSeconds.tdiv 3600
  let mm := (numSeconds.tdiv 60).tmod 60
  let ss := numSeconds.tmod 60
  hh * 10000 + mm * 100 + ss

/-- `Util::getUnixTime` (src/client/Util.cpp:179-195). -/
def getUnixTime (date time : Int) : Res Int := do
  let year := date.tdiv 10000
  let month := (date.tdiv 100).tmod 100
  let day := date.tmod 100
  let hh := time.tdiv 10000
  let mm := (time.tdiv 100).tmod 100
  let ss := time.tmod 100
  let numSeconds := hh * 3600 + mm * 60 + ss
  let t ← makeDate year month day
  let epoch ← makeDate 1970 1 1
  ok ((t - epoch) * 86400 + numSeconds)

/-- `Util::calcDate` (src/client/Util.cpp:222-237). `floor` of an integer is that integer; the month is the quotient by 100 cut to an
integer. -/
def calcDate {K : Type} [Field K] [LinearOrder K] [FloorRing K] (date : Int) (addHours : Fl K) : Res Int := do
  let year := date.tdiv 10000
  let month := (date.tmod 10000).tdiv 100
  let day := date.tmod 100
  let offDay ← Fl.floorInt (addHours / Fl.ofNat 24)
  let currDate ← makeDate year month day
  let newDate ← fromDayNumber (currDate + offDay)
  ok (newDate.1 * 10000 + newDate.2.1 * 100 + newDate.2.2)

end Gridpp.Client
