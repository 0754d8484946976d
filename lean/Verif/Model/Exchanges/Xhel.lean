import Verif.Model.Exchange
import Verif.Model.Zones

/-! `/repo/trading_calendars/exchange_calendar_xhel.py`, translated by `tools/gen_exchanges.py`. -/

namespace TC.Xhel

/-- `NewYearsDay`, `exchange_calendar_xhel.py` line 34. -/
def newYearsDay : Rule := TC.newYearsDay

/-- `Epiphany`, `exchange_calendar_xhel.py` line 36. -/
def epiphany : Rule := TC.epiphany

/-- `LabourDay`, `exchange_calendar_xhel.py` line 38. -/
def labourDay : Rule := TC.europeanLabourDay

/-- `AscensionDay`, `exchange_calendar_xhel.py` line 40. -/
def ascensionDay : Rule := TC.ascensionDay

/-- `MidsummerEve`, `exchange_calendar_xhel.py` line 42. -/
def midsummerEve : Rule := TC.midsummerEve

/-- `IndependenceDay`, `exchange_calendar_xhel.py` line 44. -/
def independenceDay : Rule := { month := 12, day := 6 }

/-- `ChristmasEve`, `exchange_calendar_xhel.py` line 46. -/
def christmasEve : Rule := TC.christmasEve

/-- `Christmas`, `exchange_calendar_xhel.py` line 47. -/
def christmas : Rule := TC.christmas

/-- `BoxingDay`, `exchange_calendar_xhel.py` line 48. -/
def boxingDay : Rule := TC.boxingDay

/-- `NewYearsEve`, `exchange_calendar_xhel.py` line 50. -/
def newYearsEve : Rule := TC.newYearsEve

/-- `tz`, `exchange_calendar_xhel.py` line 78. -/
def zone : Tz := Zones.europeHelsinki

/-- `open_times`, `exchange_calendar_xhel.py` lines 79-81. -/
def openTimes : TimeTable := [(none, hm 10 1)]

/-- `close_times`, `exchange_calendar_xhel.py` lines 82-84. -/
def closeTimes : TimeTable := [(none, hm 18 30)]

/-- `regular_holidays`, `exchange_calendar_xhel.py` lines 86-101. -/
def regular : List Rule :=
  [TC.Xhel.newYearsDay, TC.Xhel.epiphany, TC.goodFriday, TC.easterMonday, TC.Xhel.labourDay,
   TC.Xhel.ascensionDay, TC.Xhel.midsummerEve, TC.Xhel.independenceDay, TC.Xhel.christmasEve,
   TC.Xhel.christmas, TC.Xhel.boxingDay, TC.Xhel.newYearsEve]

/-- `XHELExchangeCalendar`, `exchange_calendar_xhel.py` lines 53-101. -/
def exchange : Exchange :=
  { regular := TC.Xhel.regular
    openTimes := TC.Xhel.openTimes
    closeTimes := TC.Xhel.closeTimes }

end TC.Xhel
