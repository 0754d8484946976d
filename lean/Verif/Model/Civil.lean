import Verif.Model.Build

/-!
# Gregorian dates and Easter

The date arithmetic of `datetime`/pandas and `dateutil.easter`, on which every holiday rule of the
repository relies.  Dates are day numbers, days since 1970-01-01.
-/

namespace TC

/-- `calendar.isleap` (the dates written in the calendar modules, e.g. `trading_calendar.py` line 43 and
`common_holidays.py` lines 23-35). -/
def isLeap (y : Int) : Bool := y % 4 == 0 && (y % 100 != 0 || y % 400 == 0)

/-- Day number of January 1 of year `y`: CPython's `_days_before_year`, counted from 1970-01-01
(ordinal 719163) (the dates written in the calendar modules, e.g. `trading_calendar.py` line 43 and
`common_holidays.py` lines 23-35). -/
def jan1 (y : Int) : Int :=
  (y - 1) * 365 + (y - 1) / 4 - (y - 1) / 100 + (y - 1) / 400 - 719162

/-- Number of days of year `y` before the first of month `m` (CPython's `_days_before_month`) (the dates written in
the calendar modules, e.g. `trading_calendar.py` line 43 and `common_holidays.py` lines 23-35). -/
def daysBeforeMonth (y m : Int) : Int :=
  (match m with
    | 1 => 0 | 2 => 31 | 3 => 59 | 4 => 90 | 5 => 120 | 6 => 151 | 7 => 181 | 8 => 212
    | 9 => 243 | 10 => 273 | 11 => 304 | 12 => 334 | _ => 365)
  + (if 2 < m && isLeap y then 1 else 0)

/-- Day number of the date `y`-`m`-`d` (`datetime(y, m, d)`, `Timestamp('y-m-d')`) (the dates written in the calendar
modules, e.g. `trading_calendar.py` line 43 and `common_holidays.py` lines 23-35). -/
def dayOf (y m d : Int) : Int := jan1 y + daysBeforeMonth y m + (d - 1)

/-- `Timestamp.year`: CPython's `_ord2ymd`, the 400/100/4/1 year cycles (the dates written in the calendar modules,
e.g. `trading_calendar.py` line 43 and `common_holidays.py` lines 23-35). -/
def yearOf (d : Int) : Int :=
  let n := d + 719162
  let n400 := n / 146097
  let n := n % 146097
  let n100 := n / 36524
  let n := n % 36524
  let n4 := n / 1461
  let n := n % 1461
  let n1 := n / 365
  let year := n400 * 400 + 1 + n100 * 100 + n4 * 4 + n1
  if n1 == 4 || n100 == 4 then year - 1 else year

/-- The last month of year `y` beginning at or before day-of-year `k` (0-based), looking from month
`m` downwards (the dates written in the calendar modules, e.g. `trading_calendar.py` line 43 and `common_holidays.py`
lines 23-35). -/
def monthFrom (y k : Int) : Nat → Int
  | 0 => 1
  | m + 1 => if daysBeforeMonth y (m + 1 : Nat) ≤ k then (m + 1 : Nat) else monthFrom y k m

/-- `Timestamp.month` (the dates written in the calendar modules, e.g. `trading_calendar.py` line 43 and
`common_holidays.py` lines 23-35). -/
def monthOf (d : Int) : Int := monthFrom (yearOf d) (d - jan1 (yearOf d)) 12

/-- `Timestamp.day`, the day of the month (the dates written in the calendar modules, e.g. `trading_calendar.py` line
43 and `common_holidays.py` lines 23-35). -/
def dayOfMonth (d : Int) : Int := d - dayOf (yearOf d) (monthOf d) 1 + 1

/-- `dateutil.easter.easter(year)`, western method: the `p` of the algorithm, so that Easter is
`p` days after March 28 (behind `pandas.tseries.offsets.Easter`, `common_holidays.py` lines 87-141). -/
def easterP (y : Int) : Int :=
  let g := y % 19
  let c := y / 100
  let h := (c - c / 4 - (8 * c + 13) / 25 + 19 * g + 15) % 30
  let i := h - (h / 28) * (1 - (h / 28) * (29 / (h + 1)) * ((21 - g) / 11))
  let j := (y + y / 4 + i + 2 - c + c / 4) % 7
  i - j

/-- `dateutil.easter.easter(year)` as a day number: `d = 1 + (p + 27 + (p + 6)//40) % 31`,
`m = 3 + (p + 26)//30` (behind `pandas.tseries.offsets.Easter`, `common_holidays.py` lines 87-141). -/
def easter (y : Int) : Int :=
  let p := easterP y
  dayOf y (3 + (p + 26) / 30) (1 + (p + 27 + (p + 6) / 40) % 31)

/-- `dateutil.easter.easter(year, method=EASTER_ORTHODOX)` as a day number: the Julian computus, with
`e` converting the Julian date to a Gregorian one (`exchange_calendar_asex.py` lines 41-51). -/
def orthodoxEaster (y : Int) : Int :=
  let g := y % 19
  let i := (19 * g + 15) % 30
  let j := (y + y / 4 + i) % 7
  let e := if y > 1600 then 10 + y / 100 - 16 - (y / 100 - 16) / 4 else 10
  let p := i - j + e
  dayOf y (3 + (p + 26) / 30) (1 + (p + 27 + (p + 6) / 40) % 31)

end TC
