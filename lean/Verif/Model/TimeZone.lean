import Verif.Py

/-!
# Time zones and `utils/pandas_utils.py::days_at_time`

A zone is its transition table, as pytz and pandas store it.  Wall-clock readings are integers:
nanoseconds since the epoch as a naive timestamp.
-/

namespace TC

/-- Nanoseconds per day (`pd.Timedelta(days=1)`) (as in `utils/pandas_utils.py` lines 37-48). -/
def DAY : Int := 86400000000000

/-- `datetime.time(h, m)` as nanoseconds since midnight, i.e. the `hours=` and `minutes=` part of
the `Timedelta` built in `pandas_utils.py` lines 42-47.  (`t.second` is 0 in every calendar.) -/
def hm (h m : Int) : Int := (h * 60 + m) * 60000000000

/-- A pytz zone: the UTC offset before the first transition and the list of transitions
(UTC instant, UTC offset from that instant on) (the `tz` of the calendar classes, `trading_calendar.py` lines
215-217). -/
structure Tz where
  base : Int
  trans : List (Int × Int)
  deriving DecidableEq, Repr

/-- The offset pandas uses at UTC instant `u`: `deltas[bisect_right(trans, u) - 1]`
(`tzconversion.pyx`, behind `utils/pandas_utils.py` line 48); the table's first entry stands for "before every transition". -/
def Tz.offsetAt (z : Tz) (u : Int) : Int :=
  (z.base :: z.trans.map (·.2)).getD (searchRight (z.trans.map (·.1)) u) 0

/-- `Timestamp.tz_localize(tz)` followed by conversion to UTC, with `ambiguous='raise'`,
`nonexistent='raise'`: pandas' `tz_localize_to_utc`.  It tries the offset in force one day before
and the one in force one day after, keeps those that are consistent, and raises if two remain or
none (as in `utils/pandas_utils.py` lines 37-48). -/
def Tz.localize (z : Tz) (wall : Int) : Py Int :=
  let left := wall - z.offsetAt (wall - DAY)
  let right := wall - z.offsetAt (wall + DAY)
  let leftOk := left + z.offsetAt left = wall
  let rightOk := right + z.offsetAt right = wall
  if leftOk ∧ rightOk then
    if left = right then .ok left else .error .ambiguousTime
  else if leftOk then .ok left
  else if rightOk then .ok right
  else .error .nonExistentTime

/-- `days_at_time`, `pandas_utils.py` lines 6-48.  `days` are the nanosecond values of the dates,
`t` the time of day.  `(days + delta).tz_localize(tz)` raises at the first day whose wall-clock time
does not exist or is ambiguous. -/
def daysAtTime (days : List Int) (t : Int) (z : Tz) (dayOffset : Int := 0) : Py (List Int) :=
  let delta := dayOffset * DAY + t
  days.mapM (fun d => z.localize (d + delta))

end TC
