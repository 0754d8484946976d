import Verif.Model.Exchange
import Verif.Model.Exchanges.UsHolidays
import Verif.Model.Zones

/-! `/repo/trading_calendars/exchange_calendar_iepa.py`, translated by `tools/gen_exchanges.py`. -/

namespace TC.Iepa

/-- `tz`, `exchange_calendar_iepa.py` line 36. -/
def zone : Tz := Zones.americaNewYork

/-- `open_times`, `exchange_calendar_iepa.py` lines 38-40. -/
def openTimes : TimeTable := [(none, hm 20 1)]

/-- `close_times`, `exchange_calendar_iepa.py` lines 42-44. -/
def closeTimes : TimeTable := [(none, hm 18 0)]

/-- `special_closes`, `exchange_calendar_iepa.py` lines 50-61. -/
def specialCloses : List (Int × List Rule) := [(hm 13 0,
     [TC.UsHolidays.usMartinLutherKingJrAfter1998, TC.usPresidentsDay, TC.UsHolidays.usMemorialDay,
      TC.UsHolidays.usIndependenceDay, TC.usLaborDay, TC.usThanksgivingDay])]

/-- `adhoc_holidays`, `exchange_calendar_iepa.py` lines 63-70. -/
def adhoc : List Int := TC.UsHolidays.usNationalDaysofMourning ++ [dayOf 2012 10 29]

/-- `regular_holidays`, `exchange_calendar_iepa.py` lines 72-79. -/
def regular : List Rule := [TC.UsHolidays.usNewYearsDay, TC.goodFriday, TC.UsHolidays.christmas]

/-- `IEPAExchangeCalendar`, `exchange_calendar_iepa.py` lines 25-79. -/
def exchange : Exchange :=
  { regular := TC.Iepa.regular
    adhoc := TC.Iepa.adhoc
    openTimes := TC.Iepa.openTimes
    closeTimes := TC.Iepa.closeTimes
    openOffset := (-1)
    specialCloses := TC.Iepa.specialCloses }

end TC.Iepa
