import Verif.Model.Exchange
import Verif.Model.Zones

/-! `/repo/trading_calendars/exchange_calendar_xsto.py`, translated by `tools/gen_exchanges.py`. -/

namespace TC.Xsto

/-- `NewYearsDay`, `exchange_calendar_xsto.py` line 44. -/
def newYearsDay : Rule := TC.newYearsDay

/-- `DayBeforeEpiphany`, `exchange_calendar_xsto.py` lines 46-51. -/
def dayBeforeEpiphany : Rule := { month := 1, day := 5, daysOfWeek := some [0, 1, 2, 3, 4] }

/-- `Epiphany`, `exchange_calendar_xsto.py` line 52. -/
def epiphany : Rule := TC.epiphany

/-- `DayBeforeLabourDay`, `exchange_calendar_xsto.py` lines 54-59. -/
def dayBeforeLabourDay : Rule := { month := 4, day := 30, daysOfWeek := some [0, 1, 2, 3, 4] }

/-- `LabourDay`, `exchange_calendar_xsto.py` line 60. -/
def labourDay : Rule := TC.europeanLabourDay

/-- `MaundyThursday`, `exchange_calendar_xsto.py` line 62. -/
def maundyThursday : Rule := TC.maundyThursday (daysOfWeek := some [0, 1, 2, 3, 4])

/-- `DayBeforeAscensionDay`, `exchange_calendar_xsto.py` lines 63-68. -/
def dayBeforeAscensionDay : Rule := { month := 1, day := 1, offsets := [.easter, .days 38] }

/-- `AscensionDay`, `exchange_calendar_xsto.py` line 69. -/
def ascensionDay : Rule := TC.ascensionDay

/-- `WhitMonday`, `exchange_calendar_xsto.py` line 70. -/
def whitMonday : Rule := TC.whitMonday (endDate := some (dayOf 2005 1 1))

/-- `NationalDay`, `exchange_calendar_xsto.py` line 72. -/
def nationalDay : Rule := { month := 6, day := 6, startDate := some (dayOf 2004 1 1) }

/-- `MidsummerEve`, `exchange_calendar_xsto.py` line 74. -/
def midsummerEve : Rule := TC.midsummerEve

/-- `AllSaintsEve`, `exchange_calendar_xsto.py` lines 77-82. -/
def allSaintsEve : Rule := { month := 10, day := 30, offsets := [.weekday 4 1] }

/-- `ChristmasEve`, `exchange_calendar_xsto.py` line 84. -/
def christmasEve : Rule := TC.christmasEve

/-- `Christmas`, `exchange_calendar_xsto.py` line 85. -/
def christmas : Rule := TC.christmas

/-- `BoxingDay`, `exchange_calendar_xsto.py` line 86. -/
def boxingDay : Rule := TC.boxingDay

/-- `NewYearsEve`, `exchange_calendar_xsto.py` line 88. -/
def newYearsEve : Rule := TC.newYearsEve

/-- `tz`, `exchange_calendar_xsto.py` line 123. -/
def zone : Tz := Zones.europeStockholm

/-- `open_times`, `exchange_calendar_xsto.py` lines 124-126. -/
def openTimes : TimeTable := [(none, hm 9 1)]

/-- `close_times`, `exchange_calendar_xsto.py` lines 127-129. -/
def closeTimes : TimeTable := [(none, hm 17 30)]

/-- `regular_early_close`, `exchange_calendar_xsto.py` line 130. -/
def regularEarlyClose : Int := hm 13 0

/-- `regular_holidays`, `exchange_calendar_xsto.py` lines 132-148. -/
def regular : List Rule :=
  [TC.Xsto.newYearsDay, TC.Xsto.epiphany, TC.goodFriday, TC.easterMonday, TC.Xsto.labourDay,
   TC.Xsto.ascensionDay, TC.Xsto.whitMonday, TC.Xsto.nationalDay, TC.Xsto.midsummerEve,
   TC.Xsto.christmasEve, TC.Xsto.christmas, TC.Xsto.boxingDay, TC.Xsto.newYearsEve]

/-- `special_closes`, `exchange_calendar_xsto.py` lines 150-163. -/
def specialCloses : List (Int × List Rule) := [(regularEarlyClose,
     [TC.Xsto.dayBeforeEpiphany, TC.Xsto.maundyThursday, TC.Xsto.dayBeforeLabourDay,
      TC.Xsto.dayBeforeAscensionDay, TC.Xsto.allSaintsEve])]

/-- `XSTOExchangeCalendar`, `exchange_calendar_xsto.py` lines 91-163. -/
def exchange : Exchange :=
  { regular := TC.Xsto.regular
    openTimes := TC.Xsto.openTimes
    closeTimes := TC.Xsto.closeTimes
    specialCloses := TC.Xsto.specialCloses }

end TC.Xsto
