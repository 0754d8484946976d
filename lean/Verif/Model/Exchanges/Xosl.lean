import Verif.Model.Exchange
import Verif.Model.Zones

/-! `/repo/trading_calendars/exchange_calendar_xosl.py`, translated by `tools/gen_exchanges.py`. -/

namespace TC.Xosl

/-- `NewYearsDay`, `exchange_calendar_xosl.py` line 35. -/
def newYearsDay : Rule := TC.newYearsDay

/-- `HolyWednesday`, `exchange_calendar_xosl.py` line 37. -/
def holyWednesday : Rule :=
  TC.holyWednesday (startDate := some (dayOf 2011 1 1)) (daysOfWeek := some [0, 1, 2, 3, 4])

/-- `MaundyThursday`, `exchange_calendar_xosl.py` line 38. -/
def maundyThursday : Rule := TC.maundyThursday

/-- `AscensionDay`, `exchange_calendar_xosl.py` line 39. -/
def ascensionDay : Rule := TC.ascensionDay

/-- `WhitMonday`, `exchange_calendar_xosl.py` line 40. -/
def whitMonday : Rule := TC.whitMonday

/-- `LabourDay`, `exchange_calendar_xosl.py` line 42. -/
def labourDay : Rule := TC.europeanLabourDay

/-- `ConstitutionDay`, `exchange_calendar_xosl.py` line 44. -/
def constitutionDay : Rule := { month := 5, day := 17 }

/-- `ChristmasEve`, `exchange_calendar_xosl.py` line 46. -/
def christmasEve : Rule := TC.christmasEve

/-- `Christmas`, `exchange_calendar_xosl.py` line 47. -/
def christmas : Rule := TC.christmas

/-- `BoxingDay`, `exchange_calendar_xosl.py` line 48. -/
def boxingDay : Rule := TC.boxingDay

/-- `NewYearsEve`, `exchange_calendar_xosl.py` line 50. -/
def newYearsEve : Rule := TC.newYearsEve

/-- `tz`, `exchange_calendar_xosl.py` line 78. -/
def zone : Tz := Zones.europeOslo

/-- `open_times`, `exchange_calendar_xosl.py` lines 79-81. -/
def openTimes : TimeTable := [(none, hm 9 1)]

/-- `close_times`, `exchange_calendar_xosl.py` lines 82-84. -/
def closeTimes : TimeTable := [(none, hm 16 20)]

/-- `regular_early_close`, `exchange_calendar_xosl.py` line 85. -/
def regularEarlyClose : Int := hm 13 0

/-- `regular_holidays`, `exchange_calendar_xosl.py` lines 87-102. -/
def regular : List Rule :=
  [TC.Xosl.newYearsDay, TC.Xosl.maundyThursday, TC.goodFriday, TC.easterMonday, TC.Xosl.labourDay,
   TC.Xosl.ascensionDay, TC.Xosl.constitutionDay, TC.Xosl.whitMonday, TC.Xosl.christmasEve,
   TC.Xosl.christmas, TC.Xosl.boxingDay, TC.Xosl.newYearsEve]

/-- `special_closes`, `exchange_calendar_xosl.py` lines 104-106. -/
def specialCloses : List (Int × List Rule) := [(regularEarlyClose, [TC.Xosl.holyWednesday])]

/-- `XOSLExchangeCalendar`, `exchange_calendar_xosl.py` lines 53-106. -/
def exchange : Exchange :=
  { regular := TC.Xosl.regular
    openTimes := TC.Xosl.openTimes
    closeTimes := TC.Xosl.closeTimes
    specialCloses := TC.Xosl.specialCloses }

end TC.Xosl
