import Verif.Model.Exchange
import Verif.Model.Exchanges.UsHolidays
import Verif.Model.Zones

/-! `/repo/trading_calendars/exchange_calendar_cmes.py`, translated by `tools/gen_exchanges.py`. -/

namespace TC.Cmes

/-- `tz`, `exchange_calendar_cmes.py` line 57. -/
def zone : Tz := Zones.americaChicago

/-- `open_times`, `exchange_calendar_cmes.py` lines 59-61. -/
def openTimes : TimeTable := [(none, hm 17 1)]

/-- `close_times`, `exchange_calendar_cmes.py` lines 63-65. -/
def closeTimes : TimeTable := [(none, hm 17 0)]

/-- `regular_holidays`, `exchange_calendar_cmes.py` lines 71-87. -/
def regular : List Rule := [TC.UsHolidays.usNewYearsDay, TC.goodFriday, TC.UsHolidays.christmas]

/-- `adhoc_holidays`, `exchange_calendar_cmes.py` lines 89-91. -/
def adhoc : List Int := TC.UsHolidays.usNationalDaysofMourning

/-- `special_closes`, `exchange_calendar_cmes.py` lines 93-108. -/
def specialCloses : List (Int × List Rule) := [(hm 12 0,
     [TC.UsHolidays.usMartinLutherKingJrAfter1998, TC.usPresidentsDay, TC.UsHolidays.usMemorialDay,
      TC.usLaborDay, TC.UsHolidays.usIndependenceDay, TC.usThanksgivingDay,
      TC.UsHolidays.usBlackFridayInOrAfter1993, TC.UsHolidays.christmasEveBefore1993,
      TC.UsHolidays.christmasEveInOrAfter1993])]

/-- `CMESExchangeCalendar`, `exchange_calendar_cmes.py` lines 43-108. -/
def exchange : Exchange :=
  { regular := TC.Cmes.regular
    adhoc := TC.Cmes.adhoc
    openTimes := TC.Cmes.openTimes
    closeTimes := TC.Cmes.closeTimes
    openOffset := (-1)
    specialCloses := TC.Cmes.specialCloses }

end TC.Cmes
