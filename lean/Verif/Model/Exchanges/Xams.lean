import Verif.Model.Exchange
import Verif.Model.Zones

/-! `/repo/trading_calendars/exchange_calendar_xams.py`, translated by `tools/gen_exchanges.py`. -/

namespace TC.Xams

/-- `NewYearsDay`, `exchange_calendar_xams.py` line 33. -/
def newYearsDay : Rule := TC.newYearsDay

/-- `AscensionDay`, `exchange_calendar_xams.py` line 35. -/
def ascensionDay : Rule := TC.ascensionDay (endDate := some (dayOf 2001 1 1))

/-- `WhitMonday`, `exchange_calendar_xams.py` line 36. -/
def whitMonday : Rule := TC.whitMonday (endDate := some (dayOf 2002 1 1))

/-- `QueensDay`, `exchange_calendar_xams.py` lines 38-43. -/
def queensDay : Rule := { month := 4, day := 30, endDate := some (dayOf 2002 1 1) }

/-- `LabourDay`, `exchange_calendar_xams.py` line 45. -/
def labourDay : Rule := TC.europeanLabourDay

/-- `ChristmasEve`, `exchange_calendar_xams.py` line 47. -/
def christmasEve : Rule := TC.christmasEve (daysOfWeek := some [0, 1, 2, 3, 4])

/-- `Christmas`, `exchange_calendar_xams.py` line 48. -/
def christmas : Rule := TC.christmas

/-- `BoxingDay`, `exchange_calendar_xams.py` line 49. -/
def boxingDay : Rule := TC.boxingDay

/-- `NewYearsEveBefore2002`, `exchange_calendar_xams.py` line 51. -/
def newYearsEveBefore2002 : Rule := TC.newYearsEve (endDate := some (dayOf 2002 1 1))

/-- `NewYearsEveInOrAfter2002`, `exchange_calendar_xams.py` lines 52-55. -/
def newYearsEveInOrAfter2002 : Rule :=
  TC.newYearsEve (startDate := some (dayOf 2002 1 1)) (daysOfWeek := some [0, 1, 2, 3, 4])

/-- `regular_early_close`, `exchange_calendar_xams.py` line 84. -/
def regularEarlyClose : Int := hm 14 5

/-- `tz`, `exchange_calendar_xams.py` line 91. -/
def zone : Tz := Zones.europeAmsterdam

/-- `open_times`, `exchange_calendar_xams.py` lines 93-95. -/
def openTimes : TimeTable := [(none, hm 9 1)]

/-- `close_times`, `exchange_calendar_xams.py` lines 97-99. -/
def closeTimes : TimeTable := [(none, hm 17 30)]

/-- `regular_holidays`, `exchange_calendar_xams.py` lines 101-114. -/
def regular : List Rule :=
  [TC.Xams.newYearsDay, TC.goodFriday, TC.easterMonday, TC.Xams.ascensionDay, TC.Xams.whitMonday,
   TC.Xams.queensDay, TC.Xams.labourDay, TC.Xams.christmas, TC.Xams.boxingDay,
   TC.Xams.newYearsEveBefore2002]

/-- `special_closes`, `exchange_calendar_xams.py` lines 116-123. -/
def specialCloses : List (Int × List Rule) :=
  [(regularEarlyClose, [TC.Xams.christmasEve, TC.Xams.newYearsEveInOrAfter2002])]

/-- `XAMSExchangeCalendar`, `exchange_calendar_xams.py` lines 58-123. -/
def exchange : Exchange :=
  { regular := TC.Xams.regular
    openTimes := TC.Xams.openTimes
    closeTimes := TC.Xams.closeTimes
    specialCloses := TC.Xams.specialCloses }

end TC.Xams
