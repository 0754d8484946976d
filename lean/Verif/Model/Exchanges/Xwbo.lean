import Verif.Model.Exchange
import Verif.Model.Zones

/-! `/repo/trading_calendars/exchange_calendar_xwbo.py`, translated by `tools/gen_exchanges.py`. -/

namespace TC.Xwbo

/-- `NewYearsDay`, `exchange_calendar_xwbo.py` line 42. -/
def newYearsDay : Rule := TC.newYearsDay

/-- `Epiphany`, `exchange_calendar_xwbo.py` line 44. -/
def epiphany : Rule := TC.epiphany (endDate := some (dayOf 2019 1 1))

/-- `AscensionDay`, `exchange_calendar_xwbo.py` line 46. -/
def ascensionDay : Rule := TC.ascensionDay (endDate := some (dayOf 2019 1 1))

/-- `WhitMonday`, `exchange_calendar_xwbo.py` line 47. -/
def whitMonday : Rule := TC.whitMonday

/-- `CorpusChristi`, `exchange_calendar_xwbo.py` line 48. -/
def corpusChristi : Rule := TC.corpusChristi (endDate := some (dayOf 2019 1 1))

/-- `LabourDay`, `exchange_calendar_xwbo.py` line 50. -/
def labourDay : Rule := TC.europeanLabourDay

/-- `AssumptionDay`, `exchange_calendar_xwbo.py` line 52. -/
def assumptionDay : Rule := TC.assumptionDay (endDate := some (dayOf 2019 1 1))

/-- `NationalHoliday`, `exchange_calendar_xwbo.py` line 54. -/
def nationalHoliday : Rule := { month := 10, day := 26 }

/-- `AllSaintsDay`, `exchange_calendar_xwbo.py` line 56. -/
def allSaintsDay : Rule := TC.allSaintsDay (endDate := some (dayOf 2019 1 1))

/-- `ImmaculateConception`, `exchange_calendar_xwbo.py` line 58. -/
def immaculateConception : Rule := TC.immaculateConception (endDate := some (dayOf 2019 1 1))

/-- `ChristmasEve`, `exchange_calendar_xwbo.py` line 60. -/
def christmasEve : Rule := TC.christmasEve

/-- `Christmas`, `exchange_calendar_xwbo.py` line 61. -/
def christmas : Rule := TC.christmas

/-- `SaintStephensDay`, `exchange_calendar_xwbo.py` line 63. -/
def saintStephensDay : Rule := { month := 12, day := 26 }

/-- `NewYearsEveThrough2015`, `exchange_calendar_xwbo.py` lines 67-70. -/
def newYearsEveThrough2015 : Rule :=
  TC.newYearsEve (observance := some .previousFriday) (endDate := some (dayOf 2016 1 1))

/-- `NewYearsEve2016Onwards`, `exchange_calendar_xwbo.py` line 71. -/
def newYearsEve2016Onwards : Rule := TC.newYearsEve (startDate := some (dayOf 2016 1 1))

/-- `tz`, `exchange_calendar_xwbo.py` line 104. -/
def zone : Tz := Zones.europeVienna

/-- `open_times`, `exchange_calendar_xwbo.py` lines 106-108. -/
def openTimes : TimeTable := [(none, hm 9 1)]

/-- `close_times`, `exchange_calendar_xwbo.py` lines 110-112. -/
def closeTimes : TimeTable := [(none, hm 17 30)]

/-- `regular_holidays`, `exchange_calendar_xwbo.py` lines 114-134. -/
def regular : List Rule :=
  [TC.Xwbo.newYearsDay, TC.Xwbo.epiphany, TC.goodFriday, TC.easterMonday, TC.Xwbo.ascensionDay,
   TC.Xwbo.whitMonday, TC.Xwbo.corpusChristi, TC.Xwbo.labourDay, TC.Xwbo.assumptionDay,
   TC.Xwbo.nationalHoliday, TC.Xwbo.allSaintsDay, TC.Xwbo.immaculateConception,
   TC.Xwbo.christmasEve, TC.Xwbo.christmas, TC.Xwbo.saintStephensDay,
   TC.Xwbo.newYearsEveThrough2015, TC.Xwbo.newYearsEve2016Onwards]

/-- `XWBOExchangeCalendar`, `exchange_calendar_xwbo.py` lines 74-134. -/
def exchange : Exchange :=
  { regular := TC.Xwbo.regular
    openTimes := TC.Xwbo.openTimes
    closeTimes := TC.Xwbo.closeTimes }

end TC.Xwbo
