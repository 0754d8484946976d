import Verif.Model.Exchange
import Verif.Model.Zones

/-! `/repo/trading_calendars/exchange_calendar_xswx.py`, translated by `tools/gen_exchanges.py`. -/

namespace TC.Xswx

/-- `NewYearsDay`, `exchange_calendar_xswx.py` line 41. -/
def newYearsDay : Rule := TC.newYearsDay

/-- `BerchtoldsDay`, `exchange_calendar_xswx.py` lines 43-47. -/
def berchtoldsDay : Rule := { month := 1, day := 2 }

/-- `EuropeanLabourDay`, `exchange_calendar_xswx.py` line 49. -/
def europeanLabourDay : Rule := TC.europeanLabourDay

/-- `AscensionDay`, `exchange_calendar_xswx.py` line 51. -/
def ascensionDay : Rule := TC.ascensionDay

/-- `WhitMonday`, `exchange_calendar_xswx.py` line 53. -/
def whitMonday : Rule := TC.whitMonday

/-- `SwissNationalDay`, `exchange_calendar_xswx.py` lines 55-59. -/
def swissNationalDay : Rule := { month := 8, day := 1 }

/-- `ChristmasEve`, `exchange_calendar_xswx.py` line 61. -/
def christmasEve : Rule := TC.christmasEve

/-- `Christmas`, `exchange_calendar_xswx.py` line 63. -/
def christmas : Rule := TC.christmas

/-- `BoxingDay`, `exchange_calendar_xswx.py` line 65. -/
def boxingDay : Rule := TC.boxingDay

/-- `NewYearsEve`, `exchange_calendar_xswx.py` line 67. -/
def newYearsEve : Rule := TC.newYearsEve

/-- `tz`, `exchange_calendar_xswx.py` line 94. -/
def zone : Tz := Zones.europeZurich

/-- `open_times`, `exchange_calendar_xswx.py` lines 96-98. -/
def openTimes : TimeTable := [(none, hm 9 1)]

/-- `close_times`, `exchange_calendar_xswx.py` lines 100-102. -/
def closeTimes : TimeTable := [(none, hm 17 30)]

/-- `regular_holidays`, `exchange_calendar_xswx.py` lines 104-119. -/
def regular : List Rule :=
  [TC.Xswx.newYearsDay, TC.Xswx.berchtoldsDay, TC.easterMonday, TC.goodFriday,
   TC.Xswx.europeanLabourDay, TC.Xswx.ascensionDay, TC.Xswx.whitMonday, TC.Xswx.swissNationalDay,
   TC.Xswx.christmasEve, TC.Xswx.christmas, TC.Xswx.boxingDay, TC.Xswx.newYearsEve]

/-- `XSWXExchangeCalendar`, `exchange_calendar_xswx.py` lines 70-119. -/
def exchange : Exchange :=
  { regular := TC.Xswx.regular
    openTimes := TC.Xswx.openTimes
    closeTimes := TC.Xswx.closeTimes }

end TC.Xswx
