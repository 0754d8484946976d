import Verif.Model.Exchange
import Verif.Model.Exchanges.UsHolidays
import Verif.Model.Zones

/-! `/repo/trading_calendars/us_futures_calendar.py`, translated by `tools/gen_exchanges.py`. -/

namespace TC.UsFuturesCalendar

/-- `tz`, `us_futures_calendar.py` line 54. -/
def zone : Tz := Zones.americaNewYork

/-- `open_times`, `us_futures_calendar.py` lines 55-57. -/
def openTimes : TimeTable := [(none, hm 18 1)]

/-- `close_times`, `us_futures_calendar.py` lines 58-60. -/
def closeTimes : TimeTable := [(none, hm 18 0)]

/-- `regular_holidays`, `us_futures_calendar.py` lines 69-75. -/
def regular : List Rule := [TC.UsHolidays.usNewYearsDay, TC.goodFriday, TC.UsHolidays.christmas]

/-- `QuantopianUSFuturesCalendar`, `us_futures_calendar.py` lines 24-75. -/
def exchange : Exchange :=
  { regular := TC.UsFuturesCalendar.regular
    openTimes := TC.UsFuturesCalendar.openTimes
    closeTimes := TC.UsFuturesCalendar.closeTimes
    openOffset := (-1) }

end TC.UsFuturesCalendar
