import Mathlib.Algebra.Order.Floor.Ring
import Mathlib.Algebra.Field.Basic

/-!
# Calendar

Model of `UtilsDateTime.cpp` (`ToMJD`, `FromMJD`, lines 46-119) and `TimeMachine::GetCurrentDayOfYear`
(TimeMachine.cpp:86-97).  `std::chrono::sys_days` of a `year_month_day` and back is the standard algorithm used by
the C++ libraries (H. Hinnant, `days_from_civil` / `civil_from_days`), transcribed on unbounded integers.
-/

namespace HB

/-- Gregorian leap years (TimeMachine.cpp:92; `std::chrono::year::is_leap`). -/
def isLeap (y : ℤ) : Bool := y % 4 = 0 && (y % 100 ≠ 0 || y % 400 = 0)

/-- Last day of a month (`year_month_day::ok`). -/
def lastDay (y m : ℤ) : ℤ :=
  if m = 2 then (if isLeap y then 29 else 28) else if m = 4 ∨ m = 6 ∨ m = 9 ∨ m = 11 then 30 else 31

/-- `Time` (Utils.h / Includes: year, month, day, hour, min, sec). -/
structure CTime where
  year : ℤ
  month : ℤ
  day : ℤ
  hour : ℤ
  min : ℤ
  sec : ℤ
  deriving DecidableEq, Repr

/-- `sys_days{ymd}`: days since 1970-01-01. -/
def sysDays (y m d : ℤ) : ℤ :=
  let y' := if m ≤ 2 then y - 1 else y
  let era := y' / 400
  let yoe := y' - era * 400
  let doy := (153 * (if m > 2 then m - 3 else m + 9) + 2) / 5 + d - 1
  let doe := yoe * 365 + yoe / 4 - yoe / 100 + doy
  era * 146097 + doe - 719468

/-- `year_month_day{sys_days}`. -/
def civil (z : ℤ) : ℤ × ℤ × ℤ :=
  let z := z + 719468
  let era := z / 146097
  let doe := z - era * 146097
  let yoe := (doe - doe / 1460 + doe / 36524 - doe / 146096) / 365
  let doy := doe - (365 * yoe + yoe / 4 - yoe / 100)
  let mp := (5 * doy + 2) / 153
  let d := doy - (153 * mp + 2) / 5 + 1
  let m := if mp < 10 then mp + 3 else mp - 9
  (if m ≤ 2 then yoe + era * 400 + 1 else yoe + era * 400, m, d)

/-- `ValidateHMS` (UtilsDateTime.cpp:64-69): second 60 is allowed. -/
def validHMS (h m s : ℤ) : Bool := !(h < 0 || h > 23 || m < 0 || m > 59 || s < 0 || s > 60)

/-- `ToSysDays` checks (UtilsDateTime.cpp:46-62); years of `std::chrono::year`. -/
def validYMD (y m d : ℤ) : Bool :=
  decide (-32767 ≤ y ∧ y ≤ 32767 ∧ 1 ≤ m ∧ m ≤ 12 ∧ 1 ≤ d ∧ d ≤ lastDay y m)

/-- Seconds since the Unix epoch (UtilsDateTime.cpp:86-88). -/
def sysSeconds (t : CTime) : ℤ := sysDays t.year t.month t.day * 86400 + t.hour * 3600 + t.min * 60 + t.sec

section
variable {K : Type} [Field K] [LinearOrder K] [IsStrictOrderedRing K] [FloorRing K]

/-- `SysTimeToMjd` (UtilsDateTime.cpp:71-75). -/
def secondsToMjd (s : ℤ) : K := 40587 + (s : K) / 86400

/-- `ToMJD` (UtilsDateTime.cpp:84-89): `none` = exception. -/
def toMJD (t : CTime) : Option K :=
  if validHMS t.hour t.min t.sec && validYMD t.year t.month t.day then some (secondsToMjd (sysSeconds t)) else none

/-- `std::llround`: halves away from zero. -/
def llround (x : K) : ℤ := if 0 ≤ x then ⌊x + 1 / 2⌋ else ⌈x - 1 / 2⌉

/-- `FromMJD` (UtilsDateTime.cpp:77-82, 91-109). -/
def fromMJD (mjd : K) : CTime :=
  let s := llround ((mjd - 40587) * 86400)
  let d := s / 86400
  let tod := s - d * 86400
  let c := civil d
  let h := tod / 3600
  let m := (tod - h * 3600) / 60
  ⟨c.1, c.2.1, c.2.2, h, m, tod - h * 3600 - m * 60⟩

/-- Cumulated days before each month (TimeMachine.cpp:89). -/
def cumMonthDays : List ℤ := [0, 31, 59, 90, 120, 151, 181, 212, 243, 273, 304, 334]

/-- `GetCurrentDayOfYear` (TimeMachine.cpp:86-97). -/
def dayOfYear (date : K) : ℤ :=
  if date ≤ 0 then 1
  else
    let ts := fromMJD date
    let mi := ts.month - 1
    if mi < 0 ∨ mi > 11 then 1
    else
      let doy := cumMonthDays.getD mi.toNat 0 + ts.day
      if isLeap ts.year && decide (mi > 1) then doy + 1 else doy

end
end HB
