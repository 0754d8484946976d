import Verif.Model.Build

/-!
# The two calendars without holidays: `always_open.py`, `weekday_calendar.py`
-/

namespace TC

/-- `pytz.UTC` (`always_open.py` line 11, `weekday_calendar.py` line 13). -/
def utc : Tz := { base := 0, trans := [] }

/-- `AlwaysOpenCalendar`, `/repo/trading_calendars/always_open.py` lines 7-18; `weekmask = '1111111'`. -/
def alwaysOpen : Config :=
  { tz := utc
    weekmask := fun _ => true
    openTimes := [(none, hm 0 0)]
    closeTimes := [(none, hm 23 59)] }

/-- `WeekdayCalendar`, `/repo/trading_calendars/weekday_calendar.py` lines 7-19; weekmask is the
default `'1111100'` of `trading_calendar.py` lines 253-264. -/
def weekdayCalendar : Config :=
  { tz := utc
    openTimes := [(none, hm 0 0)]
    closeTimes := [(none, hm 23 59)] }

end TC
