import Verif.Model.Exchange
import Verif.Model.Zones

/-! `/repo/trading_calendars/exchange_calendar_xmad.py`, translated by `tools/gen_exchanges.py`. -/

namespace TC.Xmad

/-- `NewYearsDay`, `exchange_calendar_xmad.py` line 44. -/
def newYearsDay : Rule := TC.newYearsDay

/-- `Epiphany`, `exchange_calendar_xmad.py` line 46. -/
def epiphany : Rule := TC.epiphany (endDate := some (dayOf 2007 1 1))

/-- `LabourDay`, `exchange_calendar_xmad.py` line 48. -/
def labourDay : Rule := TC.europeanLabourDay

/-- `AssumptionDay`, `exchange_calendar_xmad.py` line 50. -/
def assumptionDay : Rule :=
  TC.assumptionDay (endDate := some (dayOf 2005 1 1)) (observance := some .weekendToMonday)

/-- `NationalDay`, `exchange_calendar_xmad.py` lines 52-57. -/
def nationalDay : Rule := { month := 10, day := 12, endDate := some (dayOf 2005 1 1) }

/-- `AllSaintsDay`, `exchange_calendar_xmad.py` line 59. -/
def allSaintsDay : Rule := TC.allSaintsDay (endDate := some (dayOf 2005 1 1))

/-- `ConstitutionDay`, `exchange_calendar_xmad.py` lines 61-66. -/
def constitutionDay : Rule := { month := 12, day := 6, endDate := some (dayOf 2005 1 1) }

/-- `ImmaculateConception`, `exchange_calendar_xmad.py` line 68. -/
def immaculateConception : Rule := TC.immaculateConception (endDate := some (dayOf 2005 1 1))

/-- `ChristmasEveThrough2010`, `exchange_calendar_xmad.py` line 70. -/
def christmasEveThrough2010 : Rule := TC.christmasEve (endDate := some (dayOf 2011 1 1))

/-- `ChristmasEveEarlyClose2012Onwards`, `exchange_calendar_xmad.py` lines 71-74. -/
def christmasEveEarlyClose2012Onwards : Rule :=
  TC.christmasEve (startDate := some (dayOf 2012 1 1)) (daysOfWeek := some [0, 1, 2, 3, 4])

/-- `Christmas`, `exchange_calendar_xmad.py` line 75. -/
def christmas : Rule := TC.christmas

/-- `BoxingDay`, `exchange_calendar_xmad.py` line 76. -/
def boxingDay : Rule := TC.boxingDay

/-- `NewYearsEveThrough2010`, `exchange_calendar_xmad.py` line 78. -/
def newYearsEveThrough2010 : Rule := TC.newYearsEve (endDate := some (dayOf 2011 1 1))

/-- `NewYearsEveEarlyClose2012Onwards`, `exchange_calendar_xmad.py` lines 79-82. -/
def newYearsEveEarlyClose2012Onwards : Rule :=
  TC.newYearsEve (startDate := some (dayOf 2012 1 1)) (daysOfWeek := some [0, 1, 2, 3, 4])

/-- `regular_early_close`, `exchange_calendar_xmad.py` line 114. -/
def regularEarlyClose : Int := hm 14 0

/-- `tz`, `exchange_calendar_xmad.py` line 118. -/
def zone : Tz := Zones.europeMadrid

/-- `open_times`, `exchange_calendar_xmad.py` lines 120-122. -/
def openTimes : TimeTable := [(none, hm 9 1)]

/-- `close_times`, `exchange_calendar_xmad.py` lines 124-126. -/
def closeTimes : TimeTable := [(none, hm 17 30)]

/-- `regular_holidays`, `exchange_calendar_xmad.py` lines 128-145. -/
def regular : List Rule :=
  [TC.Xmad.newYearsDay, TC.Xmad.epiphany, TC.goodFriday, TC.easterMonday, TC.Xmad.labourDay,
   TC.Xmad.assumptionDay, TC.Xmad.nationalDay, TC.Xmad.allSaintsDay, TC.Xmad.constitutionDay,
   TC.Xmad.immaculateConception, TC.Xmad.christmasEveThrough2010, TC.Xmad.christmas,
   TC.Xmad.boxingDay, TC.Xmad.newYearsEveThrough2010]

/-- `special_closes`, `exchange_calendar_xmad.py` lines 147-157. -/
def specialCloses : List (Int × List Rule) :=
  [(regularEarlyClose, [TC.Xmad.christmasEveEarlyClose2012Onwards,
    TC.Xmad.newYearsEveEarlyClose2012Onwards])]

/-- `XMADExchangeCalendar`, `exchange_calendar_xmad.py` lines 85-157. -/
def exchange : Exchange :=
  { regular := TC.Xmad.regular
    openTimes := TC.Xmad.openTimes
    closeTimes := TC.Xmad.closeTimes
    specialCloses := TC.Xmad.specialCloses }

end TC.Xmad
