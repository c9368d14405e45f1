import Verif.Model.Calendar

/-!
# Reading dates from text

Model of `UtilsDateTime::ParseToMJD` (UtilsDateTime.cpp:30-44, 111-282) and of its use for the period of a run
(`TimeMachine::Initialize(const TimerSettings&)`, TimeMachine.cpp:22-40).  The non-Windows branch is modelled: the C
library's `strptime` with the conversions `%Y %m %d %H %M %S` (glibc, C locale; time/strptime_l.c, macro `get_number`),
followed by the check that only white space remains.  A C string ends at its first NUL.  `tm_year`/`tm_mon` are stored
with an offset by `strptime` and the offset is removed by the callers (lines 122-123, 153-154): the model keeps
calendar years and months.
-/

namespace HB.DateText

/-- `TimeFormat` (Enums.h:46-56). -/
inductive TimeFormat
  | ISOdate | ISOdateTime | YYYY_MM_DD | YYYY_MM_DD_hh_mm | YYYY_MM_DD_hh_mm_ss
  | DD_MM_YYYY | DD_MM_YYYY_hh_mm | DD_MM_YYYY_hh_mm_ss | guess
  deriving DecidableEq, Repr

/-- `isspace` in the C locale (UtilsDateTime.cpp:39, and `ISSPACE` in strptime). -/
def isSpace (c : Char) : Bool :=
  c == ' ' || c == '\t' || c == '\n' || c == '\x0b' || c == '\x0c' || c == '\r'

/-- The value of a decimal digit. -/
def digitVal (c : Char) : Option ℕ := if '0'.toNat ≤ c.toNat ∧ c.toNat ≤ '9'.toNat then some (c.toNat - '0'.toNat) else none

/-- The loop of `get_number` (strptime): at most `n` further digits, and only while `val * 10 <= to`. -/
def moreDigits (hi : ℕ) : ℕ → ℕ → List Char → ℕ × List Char
  | 0, v, s => (v, s)
  | _ + 1, v, [] => (v, [])
  | n + 1, v, c :: s =>
    if v * 10 ≤ hi then
      match digitVal c with
      | some k => moreDigits hi n (v * 10 + k) s
      | none => (v, c :: s)
    else (v, c :: s)

/-- `get_number(from, to, n)` (strptime): skip white space, read at most `n` digits, check the range. -/
def getNumber (lo hi n : ℕ) (s : List Char) : Option (ℕ × List Char) :=
  match s.dropWhile isSpace with
  | [] => none
  | c :: r =>
    match digitVal c with
    | none => none
    | some k =>
      let p := moreDigits hi (n - 1) k r
      if lo ≤ p.1 ∧ p.1 ≤ hi then some p else none

/-- The fields of `struct tm` in use, cleared by `memset` (UtilsDateTime.cpp:33). -/
structure Tm where
  year : ℕ := 1900
  month : ℕ := 1
  day : ℕ := 0
  hour : ℕ := 0
  min : ℕ := 0
  sec : ℕ := 0
  deriving DecidableEq, Repr

/-- Range and largest number of digits of a conversion (strptime). -/
def field : Char → Option (ℕ × ℕ × ℕ)
  | 'Y' => some (0, 9999, 4)
  | 'm' => some (1, 12, 2)
  | 'd' => some (1, 31, 2)
  | 'H' => some (0, 23, 2)
  | 'M' => some (0, 59, 2)
  | 'S' => some (0, 61, 2)
  | _ => none

/-- The field of `struct tm` written by a conversion (strptime). -/
def Tm.set (tm : Tm) (c : Char) (v : ℕ) : Tm :=
  match c with
  | 'Y' => { tm with year := v }
  | 'm' => { tm with month := v }
  | 'd' => { tm with day := v }
  | 'H' => { tm with hour := v }
  | 'M' => { tm with min := v }
  | 'S' => { tm with sec := v }
  | _ => tm

/-- The elements of a format string (strptime reads it from left to right): a conversion, a blank, another character. -/
inductive Item
  | num (c : Char) | sp | lit (c : Char)
  deriving DecidableEq, Repr

/-- A format string cut into its elements. -/
def items : List Char → List Item
  | [] => []
  | c :: f =>
    if c = '%' then
      match f with
      | [] => [.num '\x00']
      | k :: f' => .num k :: items f'
    else if isSpace c then .sp :: items f
    else .lit c :: items f

/-- `strptime(s, fmt, &tm)` (called at UtilsDateTime.cpp:35): the fields read and the unread rest.  Conversions other
than the six above are not used by the code and refused here. -/
def strptime : List Item → List Char → Tm → Option (Tm × List Char)
  | [], s, tm => some (tm, s)
  | .num c :: f, s, tm =>
    match field c with
    | none => none
    | some (lo, hi, n) =>
      match getNumber lo hi n s with
      | none => none
      | some (v, s') => strptime f s' (tm.set c v)
  | .sp :: f, s, tm => strptime f (s.dropWhile isSpace) tm
  | .lit c :: f, s, tm =>
    match s with
    | [] => none
    | x :: s' => if x = c then strptime f s' tm else none

/-- `PlatformParseTm` (UtilsDateTime.cpp:32-43). -/
def parseTm (s : List Char) (fmt : String) : Option Tm :=
  match strptime (items fmt.toList) s {} with
  | none => none
  | some (tm, rest) => if (rest.dropWhile isSpace).isEmpty then some tm else none

/-- `ParseExact` (UtilsDateTime.cpp:111-138), in seconds since 1970: `sys_days` of a day beyond the end of its month
counts on into the next month. -/
def parseExact (s : List Char) (fmt : String) : Option ℤ :=
  (parseTm s fmt).map fun tm => sysDays tm.year tm.month tm.day * 86400 + tm.hour * 3600 + tm.min * 60 + tm.sec

/-- `ParseDateOnly` (UtilsDateTime.cpp:140-162), in seconds since 1970 (line 176). -/
def parseDateOnly (s : List Char) (fmt : String) : Option ℤ :=
  (parseTm s fmt).map fun tm => sysDays tm.year tm.month tm.day * 86400

/-- `IsValidDate` of the resulting day (UtilsDateTime.cpp:193-212). -/
def isValidDate (secs : ℤ) : Bool :=
  let c := civil (secs / 86400)
  decide (1900 ≤ c.1 ∧ c.1 ≤ 2100 ∧ 1 ≤ c.2.1 ∧ c.2.1 ≤ 12 ∧ 1 ≤ c.2.2 ∧ c.2.2 ≤ 31)

/-- UtilsDateTime.cpp:217. -/
def patsYmd : List String := ["%Y-%m-%d", "%Y.%m.%d", "%Y/%m/%d", "%Y%m%d"]

/-- UtilsDateTime.cpp:228-230. -/
def patsYmdHms : List String :=
  ["%Y-%m-%dT%H:%M:%S", "%Y-%m-%d %H:%M:%S", "%Y.%m.%d %H:%M:%S", "%Y.%m.%d %H:%M",
   "%Y-%m-%d %H:%M:%S", "%Y-%m-%d %H:%M", "%Y/%m/%d %H:%M:%S", "%Y/%m/%d %H:%M",
   "%Y%m%d %H:%M", "%Y%m%d %H%M%S", "%Y%m%d %H%M", "%Y%m%d%H%M%S", "%Y%m%dT%H%M%S"]

/-- UtilsDateTime.cpp:239. -/
def patsDmy : List String := ["%d.%m.%Y", "%d/%m/%Y", "%d-%m-%Y", "%d%m%Y"]

/-- UtilsDateTime.cpp:249-251. -/
def patsDmyHms : List String :=
  ["%d.%m.%Y %H:%M:%S", "%d.%m.%Y %H:%M", "%d/%m/%Y %H:%M:%S", "%d/%m/%Y %H:%M",
   "%d-%m-%Y %H:%M:%S", "%d-%m-%Y %H:%M", "%d%m%Y %H:%M:%S", "%d%m%Y %H:%M",
   "%d%m%Y %H%M%S", "%d%m%Y %H%M"]

/-- UtilsDateTime.cpp:260-264. -/
def patsGuessTime : List String :=
  ["%Y-%m-%dT%H:%M:%S", "%Y-%m-%d %H:%M:%S", "%Y.%m.%d %H:%M:%S", "%Y.%m.%d %H:%M", "%Y-%m-%d %H:%M:%S",
   "%Y-%m-%d %H:%M", "%Y/%m/%d %H:%M:%S", "%Y/%m/%d %H:%M", "%Y%m%d%H%M%S", "%Y%m%d %H:%M",
   "%Y%m%dT%H%M%S", "%d.%m.%Y %H:%M:%S", "%d.%m.%Y %H:%M", "%d/%m/%Y %H:%M:%S", "%d/%m/%Y %H:%M",
   "%d-%m-%Y %H:%M:%S", "%d-%m-%Y %H:%M", "%d%m%Y %H:%M:%S", "%d%m%Y %H:%M"]

/-- UtilsDateTime.cpp:265-266. -/
def patsGuessDate : List String :=
  ["%Y-%m-%d", "%Y/%m/%d", "%Y%m%d", "%d.%m.%Y", "%d/%m/%Y", "%d-%m-%Y", "%d%m%Y"]

/-- `TryReturnDays` followed by `IsValidDate` (UtilsDateTime.cpp:173-181, 217-222): only the first pattern that matches
is checked. -/
def tryDays (s : List Char) (pats : List String) : Option ℤ :=
  (pats.findSome? (parseDateOnly s)).filter isValidDate

/-- `TryReturnSeconds` followed by `IsValidDate` (UtilsDateTime.cpp:182-189, 228-235). -/
def trySeconds (s : List Char) (pats : List String) : Option ℤ :=
  (pats.findSome? (parseExact s)).filter isValidDate

/-- `ParseToMJD` up to the conversion to MJD (UtilsDateTime.cpp:164-281): `none` = `InputError`. -/
def parseSeconds (str : String) (fmt : TimeFormat) : Option ℤ :=
  let s := str.toList.takeWhile (· != '\x00')
  match fmt with
  | .ISOdate | .YYYY_MM_DD => tryDays s patsYmd
  | .ISOdateTime | .YYYY_MM_DD_hh_mm | .YYYY_MM_DD_hh_mm_ss => trySeconds s patsYmdHms
  | .DD_MM_YYYY => tryDays s patsDmy
  | .DD_MM_YYYY_hh_mm | .DD_MM_YYYY_hh_mm_ss => trySeconds s patsDmyHms
  | .guess =>
    match trySeconds s patsGuessTime with
    | some x => some x
    | none => tryDays s patsGuessDate

section
variable {K : Type} [Field K]

/-- `ParseToMJD` (UtilsDateTime.cpp:164-281) and `ParseDate` (Utils.cpp:234-236). -/
def parseToMJD (str : String) (fmt : TimeFormat) : Option K := (parseSeconds str fmt).map secondsToMjd

/-- `TimerSettings` (SettingsModel.h:15-21) as used by the clock. -/
structure TimerSettings where
  start : String
  stop : String
  timeStep : ℤ
  timeStepUnit : String

/-- `TimeMachine::Initialize(const TimerSettings&)` (TimeMachine.cpp:22-40) with `UpdateTimeStepInDays`
(TimeMachine.cpp:66-84): start, end and step in days; `none` = exception. -/
def initTimer (t : TimerSettings) : Option (K × K × K) :=
  match parseToMJD t.start .guess, parseToMJD t.stop .guess with
  | some a, some b =>
    if t.timeStepUnit = "day" then some (a, b, (t.timeStep : K))
    else if t.timeStepUnit = "hour" then some (a, b, (t.timeStep : K) / 24)
    else if t.timeStepUnit = "minute" then some (a, b, (t.timeStep : K) / 1440)
    else none
  | _, _ => none

end
end HB.DateText
