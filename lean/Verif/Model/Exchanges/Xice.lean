import Verif.Model.Exchange
import Verif.Model.Zones

/-! `/repo/trading_calendars/exchange_calendar_xice.py`, translated by `tools/gen_exchanges.py`. -/

namespace TC.Xice

/-- `NewYearsDay`, `exchange_calendar_xice.py` line 41. -/
def newYearsDay : Rule := TC.newYearsDay

/-- `FirstDayOfSummer`, `exchange_calendar_xice.py` lines 44-49. -/
def firstDayOfSummer : Rule := { month := 4, day := 19, offsets := [.weekday 3 1] }

/-- `LabourDay`, `exchange_calendar_xice.py` line 51. -/
def labourDay : Rule := TC.europeanLabourDay

/-- `MaundyThursday`, `exchange_calendar_xice.py` line 53. -/
def maundyThursday : Rule := TC.maundyThursday

/-- `AscensionDay`, `exchange_calendar_xice.py` line 54. -/
def ascensionDay : Rule := TC.ascensionDay

/-- `WhitMonday`, `exchange_calendar_xice.py` line 55. -/
def whitMonday : Rule := TC.whitMonday

/-- `NationalDay`, `exchange_calendar_xice.py` line 57. -/
def nationalDay : Rule := { month := 6, day := 17 }

/-- `CommerceDay`, `exchange_calendar_xice.py` lines 60-65. -/
def commerceDay : Rule := { month := 8, day := 1, offsets := [.weekday 0 1] }

/-- `ChristmasEve`, `exchange_calendar_xice.py` line 67. -/
def christmasEve : Rule := TC.christmasEve

/-- `Christmas`, `exchange_calendar_xice.py` line 68. -/
def christmas : Rule := TC.christmas

/-- `BoxingDay`, `exchange_calendar_xice.py` line 69. -/
def boxingDay : Rule := TC.boxingDay

/-- `NewYearsEve`, `exchange_calendar_xice.py` line 71. -/
def newYearsEve : Rule := TC.newYearsEve

/-- `tz`, `exchange_calendar_xice.py` line 101. -/
def zone : Tz := Zones.atlanticReykjavik

/-- `open_times`, `exchange_calendar_xice.py` lines 102-104. -/
def openTimes : TimeTable := [(none, hm 9 31)]

/-- `close_times`, `exchange_calendar_xice.py` lines 105-107. -/
def closeTimes : TimeTable := [(none, hm 15 30)]

/-- `regular_holidays`, `exchange_calendar_xice.py` lines 109-126. -/
def regular : List Rule :=
  [TC.Xice.newYearsDay, TC.Xice.maundyThursday, TC.goodFriday, TC.easterMonday,
   TC.Xice.firstDayOfSummer, TC.Xice.labourDay, TC.Xice.ascensionDay, TC.Xice.whitMonday,
   TC.Xice.nationalDay, TC.Xice.commerceDay, TC.Xice.christmasEve, TC.Xice.christmas,
   TC.Xice.boxingDay, TC.Xice.newYearsEve]

/-- `XICEExchangeCalendar`, `exchange_calendar_xice.py` lines 74-126. -/
def exchange : Exchange :=
  { regular := TC.Xice.regular
    openTimes := TC.Xice.openTimes
    closeTimes := TC.Xice.closeTimes }

end TC.Xice
