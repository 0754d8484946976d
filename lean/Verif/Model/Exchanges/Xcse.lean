import Verif.Model.Exchange
import Verif.Model.Zones

/-! `/repo/trading_calendars/exchange_calendar_xcse.py`, translated by `tools/gen_exchanges.py`. -/

namespace TC.Xcse

/-- `NewYearsDay`, `exchange_calendar_xcse.py` line 39. -/
def newYearsDay : Rule := TC.newYearsDay

/-- `MaundyThursday`, `exchange_calendar_xcse.py` line 41. -/
def maundyThursday : Rule := TC.maundyThursday

/-- `GeneralPrayerDay`, `exchange_calendar_xcse.py` lines 42-47. -/
def generalPrayerDay : Rule := { month := 1, day := 1, offsets := [.easter, .days 26] }

/-- `AscensionDay`, `exchange_calendar_xcse.py` line 48. -/
def ascensionDay : Rule := TC.ascensionDay

/-- `BankHoliday`, `exchange_calendar_xcse.py` lines 49-55. -/
def bankHoliday : Rule :=
  { month := 1, day := 1, offsets := [.easter, .days 40], startDate := some (dayOf 2009 1 1) }

/-- `WhitMonday`, `exchange_calendar_xcse.py` line 56. -/
def whitMonday : Rule := TC.whitMonday

/-- `ConstitutionDay`, `exchange_calendar_xcse.py` line 58. -/
def constitutionDay : Rule := { month := 6, day := 5 }

/-- `ChristmasEve`, `exchange_calendar_xcse.py` line 60. -/
def christmasEve : Rule := TC.christmasEve

/-- `Christmas`, `exchange_calendar_xcse.py` line 61. -/
def christmas : Rule := TC.christmas

/-- `BoxingDay`, `exchange_calendar_xcse.py` line 62. -/
def boxingDay : Rule := TC.boxingDay

/-- `NewYearsEve`, `exchange_calendar_xcse.py` line 64. -/
def newYearsEve : Rule := TC.newYearsEve

/-- `tz`, `exchange_calendar_xcse.py` line 93. -/
def zone : Tz := Zones.europeCopenhagen

/-- `open_times`, `exchange_calendar_xcse.py` lines 94-96. -/
def openTimes : TimeTable := [(none, hm 9 1)]

/-- `close_times`, `exchange_calendar_xcse.py` lines 97-99. -/
def closeTimes : TimeTable := [(none, hm 17 0)]

/-- `regular_holidays`, `exchange_calendar_xcse.py` lines 101-117. -/
def regular : List Rule :=
  [TC.Xcse.newYearsDay, TC.Xcse.maundyThursday, TC.goodFriday, TC.easterMonday,
   TC.Xcse.generalPrayerDay, TC.Xcse.ascensionDay, TC.Xcse.bankHoliday, TC.Xcse.whitMonday,
   TC.Xcse.constitutionDay, TC.Xcse.christmasEve, TC.Xcse.christmas, TC.Xcse.boxingDay,
   TC.Xcse.newYearsEve]

/-- `XCSEExchangeCalendar`, `exchange_calendar_xcse.py` lines 67-117. -/
def exchange : Exchange :=
  { regular := TC.Xcse.regular
    openTimes := TC.Xcse.openTimes
    closeTimes := TC.Xcse.closeTimes }

end TC.Xcse
