import Verif.Model.Py
/-
The part of Python 2's `datetime` and `calendar` modules the code relies on.  This is library
behaviour, not code of /repo: it is part of the trusted base.  The conversions between ordinals and
year/month/day are transcribed from CPython (`Lib/datetime.py`, `_ymd2ord`, `_ord2ymd`), and are
proved to be mutually inverse in `Verif.Lemmas.DateTime`.
-/
namespace CalCore

/- The four types below are macros (not definitions) for `Int`, so that linear arithmetic
applies to them directly. -/

/-- `datetime.date`, represented by its proleptic Gregorian ordinal (`date.toordinal()`;
0001-01-01 is 1).  Python dates range over 1..3652059; the operations below raise outside. -/
macro "Date" : term => `(Int)
/-- naive `datetime.datetime`: microseconds since midnight of ordinal 0. -/
macro "DateTime" : term => `(Int)
/-- `datetime.timedelta` in microseconds.  (Python limits timedeltas to 999999999 days; every
timedelta the code builds from dates is far inside; see DESIGN.md.) -/
macro "TimeDelta" : term => `(Int)
/-- `datetime.time`: microseconds since midnight, `0 ≤ t < DAY` for real Python values. -/
macro "Time" : term => `(Int)

/-- `timedelta(days=1)` in microseconds -/
def DAY : Int := 86400000000
/-- `date.max.toordinal()` : 9999-12-31 -/
def MAXORD : Int := 3652059
/-- largest C `int`: larger arguments to `date.replace`/`date(...)` raise OverflowError -/
def CINT : Int := 2147483647

/-- A Python date is between 0001-01-01 and 9999-12-31. -/
def dateInRange (d : Date) : Bool := 1 ≤ d && d ≤ MAXORD
/-- A Python datetime is between 0001-01-01T00:00 and 9999-12-31T23:59:59.999999. -/
def dtInRange (t : DateTime) : Bool := DAY ≤ t && t < (MAXORD + 1) * DAY

/-- `calendar.isleap` -/
def isLeap (y : Int) : Bool := y % 4 = 0 && (y % 100 ≠ 0 || y % 400 = 0)

/-- CPython `_days_before_year` -/
def daysBeforeYear (y : Int) : Int := (y - 1) * 365 + (y - 1) / 4 - (y - 1) / 100 + (y - 1) / 400

/-- CPython `_days_in_month`; `calendar.monthrange(y, m)[1]` for `1 ≤ m ≤ 12`. -/
def daysInMonth (y m : Int) : Int :=
  if m = 2 then (if isLeap y then 29 else 28)
  else if m = 4 ∨ m = 6 ∨ m = 9 ∨ m = 11 then 30 else 31

/-- CPython `_DAYS_BEFORE_MONTH` (non-leap table) -/
def daysBeforeMonth0 (m : Int) : Int :=
  if m ≤ 1 then 0 else if m = 2 then 31 else if m = 3 then 59 else if m = 4 then 90
  else if m = 5 then 120 else if m = 6 then 151 else if m = 7 then 181 else if m = 8 then 212
  else if m = 9 then 243 else if m = 10 then 273 else if m = 11 then 304 else 334

/-- CPython `_days_before_month` -/
def daysBeforeMonth (y m : Int) : Int :=
  daysBeforeMonth0 m + (if 2 < m ∧ isLeap y = true then 1 else 0)

/-- CPython `_ymd2ord` -/
def ymd2ord (y m d : Int) : Date := daysBeforeYear y + daysBeforeMonth y m + d

/-- CPython `_ord2ymd` -/
def ord2ymd (n : Date) : Int × Int × Int :=
  let n := n - 1
  let n400 := n / 146097
  let n := n % 146097
  let n100 := n / 36524
  let n := n % 36524
  let n4 := n / 1461
  let n := n % 1461
  let n1 := n / 365
  let n := n % 365
  let year := n400 * 400 + 1 + n100 * 100 + n4 * 4 + n1
  if n1 = 4 ∨ n100 = 4 then (year - 1, 12, 31)
  else
    let leap : Bool := n1 = 3 && (n4 ≠ 24 || n100 = 3)
    let month := (n + 50) / 32
    let preceding := daysBeforeMonth0 month + (if 2 < month ∧ leap = true then 1 else 0)
    if preceding > n then
      let month := month - 1
      let preceding := daysBeforeMonth0 month + (if 2 < month ∧ leap = true then 1 else 0)
      (year, month, n - preceding + 1)
    else (year, month, n - preceding + 1)

/-- `d.year` -/
def dyear (d : Date) : Int := (ord2ymd d).1
/-- `d.month` -/
def dmonth (d : Date) : Int := (ord2ymd d).2.1
/-- `d.day` -/
def dday (d : Date) : Int := (ord2ymd d).2.2

/-- `date(y, m, d)` (also what `date.replace` calls): OverflowError if an argument does not fit a
C int, ValueError outside the calendar.  (Only the year can be large in the modelled code.) -/
def mkDate (y m d : Int) : Res Date :=
  if y > CINT ∨ y < -CINT - 1 then raise .OverflowError
  else if 1 ≤ y ∧ y ≤ 9999 ∧ 1 ≤ m ∧ m ≤ 12 ∧ 1 ≤ d ∧ d ≤ daysInMonth y m then .ok (ymd2ord y m d)
  else raise .ValueError

/-- `d + timedelta(days=n)` on dates -/
def dateAdd (d : Date) (n : Int) : Res Date :=
  if dateInRange (d + n) then .ok (d + n) else raise .OverflowError

/-- `date.weekday()`: Monday is 0. -/
def weekday (d : Date) : Int := (d + 6) % 7

/-- `date.isocalendar()`, specified through the Monday of ISO week 1 (CPython `_isoweek1monday`:
the Monday of the week containing January 4th). -/
def isoWeek1Monday (y : Int) : Date :=
  let jan1 := ymd2ord y 1 1
  let monday := jan1 - weekday jan1
  if weekday jan1 > 3 then monday + 7 else monday

/-- CPython `date.isocalendar` -/
def isocalendar (d : Date) : Int × Int × Int :=
  let year := dyear d
  let w1 := isoWeek1Monday year
  let week := (d - w1) / 7
  let day := (d - w1) % 7
  if week < 0 then
    let w1' := isoWeek1Monday (year - 1)
    (year - 1, (d - w1') / 7 + 1, (d - w1') % 7 + 1)
  else if week ≥ 52 ∧ d ≥ isoWeek1Monday (year + 1) then (year + 1, 1, day + 1)
  else (year, week + 1, day + 1)

/-- `dt.date()` -/
def dtDate (t : DateTime) : Date := t / DAY
/-- `dt.time()` -/
def dtTime (t : DateTime) : Time := t % DAY
/-- `datetime.combine(d, t)` -/
def combine (d : Date) (t : Time) : DateTime := d * DAY + t
/-- `dt + td` on datetimes -/
def dtAdd (t : DateTime) (td : TimeDelta) : Res DateTime :=
  if dtInRange (t + td) then .ok (t + td) else raise .OverflowError

end CalCore
