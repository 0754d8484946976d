import Verif.Model.Exchange
import Verif.Model.Zones

/-! `/repo/trading_calendars/exchange_calendar_xbru.py`, translated by `tools/gen_exchanges.py`. -/

namespace TC.Xbru

/-- `NewYearsDay`, `exchange_calendar_xbru.py` line 33. -/
def newYearsDay : Rule := TC.newYearsDay

/-- `AscensionDay`, `exchange_calendar_xbru.py` line 35. -/
def ascensionDay : Rule := TC.ascensionDay (endDate := some (dayOf 2001 1 1))

/-- `WhitMonday`, `exchange_calendar_xbru.py` line 36. -/
def whitMonday : Rule := TC.whitMonday (endDate := some (dayOf 2002 1 1))

/-- `LabourDay`, `exchange_calendar_xbru.py` line 38. -/
def labourDay : Rule := TC.europeanLabourDay

/-- `BelgiumIndependenceDay`, `exchange_calendar_xbru.py` lines 40-45. -/
def belgiumIndependenceDay : Rule := { month := 7, day := 21, endDate := some (dayOf 2002 1 1) }

/-- `ChristmasEve`, `exchange_calendar_xbru.py` line 47. -/
def christmasEve : Rule := TC.christmasEve (daysOfWeek := some [0, 1, 2, 3, 4])

/-- `Christmas`, `exchange_calendar_xbru.py` line 48. -/
def christmas : Rule := TC.christmas

/-- `BoxingDay`, `exchange_calendar_xbru.py` line 49. -/
def boxingDay : Rule := TC.boxingDay

/-- `NewYearsEveBefore2002`, `exchange_calendar_xbru.py` line 51. -/
def newYearsEveBefore2002 : Rule := TC.newYearsEve (endDate := some (dayOf 2002 1 1))

/-- `NewYearsEveInOrAfter2002`, `exchange_calendar_xbru.py` lines 52-55. -/
def newYearsEveInOrAfter2002 : Rule :=
  TC.newYearsEve (startDate := some (dayOf 2002 1 1)) (daysOfWeek := some [0, 1, 2, 3, 4])

/-- `regular_early_close`, `exchange_calendar_xbru.py` line 84. -/
def regularEarlyClose : Int := hm 14 5

/-- `tz`, `exchange_calendar_xbru.py` line 91. -/
def zone : Tz := Zones.europeBrussels

/-- `open_times`, `exchange_calendar_xbru.py` lines 93-95. -/
def openTimes : TimeTable := [(none, hm 9 1)]

/-- `close_times`, `exchange_calendar_xbru.py` lines 97-99. -/
def closeTimes : TimeTable := [(none, hm 17 30)]

/-- `regular_holidays`, `exchange_calendar_xbru.py` lines 101-114. -/
def regular : List Rule :=
  [TC.Xbru.newYearsDay, TC.goodFriday, TC.easterMonday, TC.Xbru.ascensionDay, TC.Xbru.whitMonday,
   TC.Xbru.labourDay, TC.Xbru.belgiumIndependenceDay, TC.Xbru.christmas, TC.Xbru.boxingDay,
   TC.Xbru.newYearsEveBefore2002]

/-- `special_closes`, `exchange_calendar_xbru.py` lines 116-123. -/
def specialCloses : List (Int × List Rule) :=
  [(regularEarlyClose, [TC.Xbru.christmasEve, TC.Xbru.newYearsEveInOrAfter2002])]

/-- `XBRUExchangeCalendar`, `exchange_calendar_xbru.py` lines 58-123. -/
def exchange : Exchange :=
  { regular := TC.Xbru.regular
    openTimes := TC.Xbru.openTimes
    closeTimes := TC.Xbru.closeTimes
    specialCloses := TC.Xbru.specialCloses }

end TC.Xbru
