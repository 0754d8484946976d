import Verif.Model.Exchange
import Verif.Model.Zones

/-! `/repo/trading_calendars/exchange_calendar_xlim.py`, translated by `tools/gen_exchanges.py`. -/

namespace TC.Xlim

/-- `NewYearsDay`, `exchange_calendar_xlim.py` line 39. -/
def newYearsDay : Rule := TC.newYearsDay

/-- `MaundyThursday`, `exchange_calendar_xlim.py` line 41. -/
def maundyThursday : Rule := TC.maundyThursday

/-- `LabourDay`, `exchange_calendar_xlim.py` line 43. -/
def labourDay : Rule := TC.europeanLabourDay

/-- `SaintPeterAndSaintPaulDay`, `exchange_calendar_xlim.py` line 45. -/
def saintPeterAndSaintPaulDay : Rule := TC.saintPeterAndSaintPaulDay

/-- `IndependenceDay1`, `exchange_calendar_xlim.py` line 47. -/
def independenceDay1 : Rule := { month := 7, day := 28 }

/-- `IndependenceDay2`, `exchange_calendar_xlim.py` line 48. -/
def independenceDay2 : Rule := { month := 7, day := 29 }

/-- `SantaRosa`, `exchange_calendar_xlim.py` line 50. -/
def santaRosa : Rule := { month := 8, day := 30 }

/-- `BattleOfAngamos`, `exchange_calendar_xlim.py` line 52. -/
def battleOfAngamos : Rule := { month := 10, day := 8 }

/-- `AllSaintsDay`, `exchange_calendar_xlim.py` line 54. -/
def allSaintsDay : Rule := TC.allSaintsDay

/-- `ImmaculateConception`, `exchange_calendar_xlim.py` line 56. -/
def immaculateConception : Rule := TC.immaculateConception

/-- `Christmas`, `exchange_calendar_xlim.py` line 58. -/
def christmas : Rule := TC.christmas

/-- `NewYearsEve`, `exchange_calendar_xlim.py` line 60. -/
def newYearsEve : Rule := TC.newYearsEve (endDate := some (dayOf 2008 1 1))

/-- `ExchangeHolidays`, `exchange_calendar_xlim.py` lines 66-71. -/
def exchangeHolidays : List Int :=
  [dayOf 2009 1 2, dayOf 2009 7 27, dayOf 2015 7 27, dayOf 2015 10 9]

/-- `NationalHolidays`, `exchange_calendar_xlim.py` lines 73-75. -/
def nationalHolidays : List Int := [dayOf 2015 1 2]

/-- `ASPASummit`, `exchange_calendar_xlim.py` lines 77-80. -/
def aspaSummit : List Int := [dayOf 2012 10 1, dayOf 2012 10 2]

/-- `APECSummit`, `exchange_calendar_xlim.py` lines 82-85. -/
def apecSummit : List Int := [dayOf 2016 11 17, dayOf 2016 11 18]

/-- `EighthSummitOfTheAmericas`, `exchange_calendar_xlim.py` line 87. -/
def eighthSummitOfTheAmericas : List Int := [dayOf 2018 4 13]

/-- `tz`, `exchange_calendar_xlim.py` line 117. -/
def zone : Tz := Zones.americaLima

/-- `open_times`, `exchange_calendar_xlim.py` lines 119-121. -/
def openTimes : TimeTable := [(none, hm 9 1)]

/-- `close_times`, `exchange_calendar_xlim.py` lines 122-124. -/
def closeTimes : TimeTable := [(none, hm 16 0)]

/-- `regular_holidays`, `exchange_calendar_xlim.py` lines 126-142. -/
def regular : List Rule :=
  [TC.Xlim.newYearsDay, TC.Xlim.maundyThursday, TC.goodFriday, TC.Xlim.labourDay,
   TC.Xlim.saintPeterAndSaintPaulDay, TC.Xlim.independenceDay1, TC.Xlim.independenceDay2,
   TC.Xlim.santaRosa, TC.Xlim.battleOfAngamos, TC.Xlim.allSaintsDay, TC.Xlim.immaculateConception,
   TC.Xlim.christmas, TC.Xlim.newYearsEve]

/-- `adhoc_holidays`, `exchange_calendar_xlim.py` lines 144-154. -/
def adhoc : List Int :=
  TC.Xlim.exchangeHolidays ++ TC.Xlim.nationalHolidays ++ TC.Xlim.aspaSummit ++
    TC.Xlim.apecSummit ++ TC.Xlim.eighthSummitOfTheAmericas

/-- `XLIMExchangeCalendar`, `exchange_calendar_xlim.py` lines 90-154. -/
def exchange : Exchange :=
  { regular := TC.Xlim.regular
    adhoc := TC.Xlim.adhoc
    openTimes := TC.Xlim.openTimes
    closeTimes := TC.Xlim.closeTimes }

end TC.Xlim
