import Verif.Model.Exchange
import Verif.Model.Exchanges.UsHolidays
import Verif.Model.Zones

/-! `/repo/trading_calendars/exchange_calendar_xcbf.py`, translated by `tools/gen_exchanges.py`. -/

namespace TC.Xcbf

/-- `GoodFridayUnlessChristmasNYEFriday`, `exchange_calendar_xcbf.py` lines 49-54. -/
def goodFridayUnlessChristmasNYEFriday : Rule :=
  { month := 1, day := 1, observance := some .goodFridayUnlessChristmasNyeFriday }

/-- `tz`, `exchange_calendar_xcbf.py` line 70. -/
def zone : Tz := Zones.americaChicago

/-- `open_times`, `exchange_calendar_xcbf.py` lines 72-74. -/
def openTimes : TimeTable := [(none, hm 8 31)]

/-- `close_times`, `exchange_calendar_xcbf.py` lines 76-78. -/
def closeTimes : TimeTable := [(none, hm 15 15)]

/-- `regular_holidays`, `exchange_calendar_xcbf.py` lines 80-92. -/
def regular : List Rule :=
  [TC.UsHolidays.usNewYearsDay, TC.UsHolidays.usMartinLutherKingJrAfter1998, TC.usPresidentsDay,
   TC.Xcbf.goodFridayUnlessChristmasNYEFriday, TC.UsHolidays.usIndependenceDay,
   TC.UsHolidays.usMemorialDay, TC.usLaborDay, TC.usThanksgivingDay, TC.UsHolidays.christmas]

/-- `special_closes`, `exchange_calendar_xcbf.py` lines 94-101. -/
def specialCloses : List (Int × List Rule) :=
  [(hm 12 15, [TC.UsHolidays.usBlackFridayInOrAfter1993])]

/-- `adhoc_holidays`, `exchange_calendar_xcbf.py` lines 103-108. -/
def adhoc : List Int :=
  TC.UsHolidays.hurricaneSandyClosings ++ TC.UsHolidays.usNationalDaysofMourning

/-- `XCBFExchangeCalendar`, `exchange_calendar_xcbf.py` lines 57-108. -/
def exchange : Exchange :=
  { regular := TC.Xcbf.regular
    adhoc := TC.Xcbf.adhoc
    openTimes := TC.Xcbf.openTimes
    closeTimes := TC.Xcbf.closeTimes
    specialCloses := TC.Xcbf.specialCloses }

end TC.Xcbf
