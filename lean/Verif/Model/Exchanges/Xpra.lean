import Verif.Model.Exchange
import Verif.Model.Zones

/-! `/repo/trading_calendars/exchange_calendar_xpra.py`, translated by `tools/gen_exchanges.py`. -/

namespace TC.Xpra

/-- `NewYearsDay`, `exchange_calendar_xpra.py` line 39. -/
def newYearsDay : Rule := TC.newYearsDay

/-- `GoodFriday`, `exchange_calendar_xpra.py` lines 42-48. -/
def goodFriday : Rule :=
  { month := 1, day := 1, offsets := [.easter, .days (-2)], startDate := some (dayOf 2013 1 1) }

/-- `LabourDay`, `exchange_calendar_xpra.py` line 50. -/
def labourDay : Rule := TC.europeanLabourDay

/-- `LiberationDay`, `exchange_calendar_xpra.py` lines 52-56. -/
def liberationDay : Rule := { month := 5, day := 8 }

/-- `SaintsCyrilAndMethodiusDay`, `exchange_calendar_xpra.py` lines 58-62. -/
def saintsCyrilAndMethodiusDay : Rule := { month := 7, day := 5 }

/-- `JanHusDay`, `exchange_calendar_xpra.py` lines 64-68. -/
def janHusDay : Rule := { month := 7, day := 6 }

/-- `CzechStatehoodDay`, `exchange_calendar_xpra.py` lines 70-74. -/
def czechStatehoodDay : Rule := { month := 9, day := 28 }

/-- `IndependenceDay`, `exchange_calendar_xpra.py` lines 76-80. -/
def independenceDay : Rule := { month := 10, day := 28 }

/-- `StruggleForFreedomAndDemocracyDay`, `exchange_calendar_xpra.py` lines 82-86. -/
def struggleForFreedomAndDemocracyDay : Rule := { month := 11, day := 17 }

/-- `ChristmasEve`, `exchange_calendar_xpra.py` line 88. -/
def christmasEve : Rule := TC.christmasEve

/-- `ChristmasDay`, `exchange_calendar_xpra.py` line 90. -/
def christmasDay : Rule := TC.christmas

/-- `SecondDayOfChristmas`, `exchange_calendar_xpra.py` lines 92-96. -/
def secondDayOfChristmas : Rule := { month := 12, day := 26 }

/-- `ExchangeHoliday`, `exchange_calendar_xpra.py` line 98. -/
def exchangeHoliday : Rule := TC.newYearsEve

/-- `tz`, `exchange_calendar_xpra.py` line 129. -/
def zone : Tz := Zones.europePrague

/-- `open_times`, `exchange_calendar_xpra.py` lines 131-133. -/
def openTimes : TimeTable := [(none, hm 9 1)]

/-- `close_times`, `exchange_calendar_xpra.py` lines 135-137. -/
def closeTimes : TimeTable := [(none, hm 16 20)]

/-- `regular_holidays`, `exchange_calendar_xpra.py` lines 139-156. -/
def regular : List Rule :=
  [TC.Xpra.newYearsDay, TC.Xpra.goodFriday, TC.easterMonday, TC.Xpra.labourDay,
   TC.Xpra.liberationDay, TC.Xpra.saintsCyrilAndMethodiusDay, TC.Xpra.janHusDay,
   TC.Xpra.czechStatehoodDay, TC.Xpra.independenceDay, TC.Xpra.struggleForFreedomAndDemocracyDay,
   TC.Xpra.christmasEve, TC.Xpra.christmasDay, TC.Xpra.secondDayOfChristmas,
   TC.Xpra.exchangeHoliday]

/-- `adhoc_holidays`, `exchange_calendar_xpra.py` lines 158-166. -/
def adhoc : List Int := [dayOf 2002 8 14, dayOf 2004 1 2, dayOf 2005 1 3]

/-- `XPRAExchangeCalendar`, `exchange_calendar_xpra.py` lines 101-166. -/
def exchange : Exchange :=
  { regular := TC.Xpra.regular
    adhoc := TC.Xpra.adhoc
    openTimes := TC.Xpra.openTimes
    closeTimes := TC.Xpra.closeTimes }

end TC.Xpra
