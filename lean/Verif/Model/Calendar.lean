import Verif.Base.Py

/-!
# Calendar functions of the Python standard library used by the code

`calendar.isleap` and the `datetime` day ordinal (CPython `Lib/calendar.py`, `Lib/_pydatetime.py`).
-/

namespace CI

/-- `calendar.isleap(year)`: `year % 4 == 0 and (year % 100 != 0 or year % 400 == 0)`
(Python `%` with a positive divisor is `Int.emod`). -/
def isLeap (year : Int) : Bool :=
  year % 4 == 0 && (year % 100 != 0 || year % 400 == 0)

/-- CPython `_days_before_year`: number of days before January 1st of `year`. -/
def daysBeforeYear (year : Int) : Int :=
  let y := year - 1
  y * 365 + y / 4 - y / 100 + y / 400

/-- CPython `_DAYS_BEFORE_MONTH` (non-leap year), index 0 unused there; here month 1..12. -/
def daysBeforeMonthTable : Nat → Int
  | 1 => 0 | 2 => 31 | 3 => 59 | 4 => 90 | 5 => 120 | 6 => 151
  | 7 => 181 | 8 => 212 | 9 => 243 | 10 => 273 | 11 => 304 | 12 => 334
  | _ => 0

/-- CPython `_days_before_month(year, month)`. -/
def daysBeforeMonth (year : Int) (month : Nat) : Int :=
  daysBeforeMonthTable month + (if 2 < month ∧ isLeap year = true then 1 else 0)

/-- CPython `_ymd2ord(year, month, day)`. -/
def ymd2ord (year : Int) (month : Nat) (day : Int) : Int :=
  daysBeforeYear year + daysBeforeMonth year month + day

/-- CPython `_DAYS_IN_MONTH` / `_days_in_month`. -/
def daysInMonth (year : Int) (month : Nat) : Int :=
  match month with
  | 1 => 31 | 2 => if isLeap year then 29 else 28 | 3 => 31 | 4 => 30 | 5 => 31 | 6 => 30
  | 7 => 31 | 8 => 31 | 9 => 30 | 10 => 31 | 11 => 30 | 12 => 31
  | _ => 0

/-- `datetime(year, month, day)`, represented by its ordinal: ValueError unless
`1 <= year <= 9999`, `1 <= month <= 12` and the day exists. The difference of two such values in
`.days` is the difference of the ordinals (midnight to midnight). -/
def mkDate (year : Int) (month : Nat) (day : Int) : Res Int :=
  if 1 ≤ year ∧ year ≤ 9999 ∧ 1 ≤ month ∧ month ≤ 12 ∧ 1 ≤ day ∧ day ≤ daysInMonth year month then
    .ok (ymd2ord year month day)
  else
    .error .valueError

end CI
