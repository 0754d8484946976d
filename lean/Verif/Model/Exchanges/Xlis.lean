import Verif.Model.Exchange
import Verif.Model.Zones

/-! `/repo/trading_calendars/exchange_calendar_xlis.py`, translated by `tools/gen_exchanges.py`. -/

namespace TC.Xlis

/-- `NewYearsDay`, `exchange_calendar_xlis.py` line 36. -/
def newYearsDay : Rule := TC.newYearsDay

/-- `Carnival`, `exchange_calendar_xlis.py` lines 38-44. -/
def carnival : Rule :=
  { month := 1, day := 1, offsets := [.easter, .days (-47)], endDate := some (dayOf 2003 1 1) }

/-- `CorpusChristi`, `exchange_calendar_xlis.py` line 45. -/
def corpusChristi : Rule := TC.corpusChristi (endDate := some (dayOf 2003 1 1))

/-- `LibertyDay`, `exchange_calendar_xlis.py` lines 47-52. -/
def libertyDay : Rule := { month := 4, day := 25, endDate := some (dayOf 2003 1 1) }

/-- `LabourDay`, `exchange_calendar_xlis.py` line 54. -/
def labourDay : Rule := TC.europeanLabourDay

/-- `PortugalDay`, `exchange_calendar_xlis.py` lines 56-61. -/
def portugalDay : Rule := { month := 6, day := 10, endDate := some (dayOf 2003 1 1) }

/-- `SaintAnthonysDay`, `exchange_calendar_xlis.py` lines 63-68. -/
def saintAnthonysDay : Rule := { month := 6, day := 13, endDate := some (dayOf 2002 1 1) }

/-- `AssumptionDay`, `exchange_calendar_xlis.py` line 70. -/
def assumptionDay : Rule := TC.assumptionDay (endDate := some (dayOf 2003 1 1))

/-- `RepublicDay`, `exchange_calendar_xlis.py` lines 72-77. -/
def republicDay : Rule := { month := 10, day := 5, endDate := some (dayOf 2003 1 1) }

/-- `AllSaintsDay`, `exchange_calendar_xlis.py` line 79. -/
def allSaintsDay : Rule := TC.allSaintsDay (endDate := some (dayOf 2003 1 1))

/-- `IndependenceDay`, `exchange_calendar_xlis.py` lines 81-86. -/
def independenceDay : Rule := { month := 12, day := 1, endDate := some (dayOf 2003 1 1) }

/-- `ImmaculateConception`, `exchange_calendar_xlis.py` line 88. -/
def immaculateConception : Rule := TC.immaculateConception (endDate := some (dayOf 2003 1 1))

/-- `ChristmasEveBefore2003`, `exchange_calendar_xlis.py` line 90. -/
def christmasEveBefore2003 : Rule := TC.christmasEve (endDate := some (dayOf 2003 1 1))

/-- `ChristmasEve`, `exchange_calendar_xlis.py` line 91. -/
def christmasEve : Rule :=
  TC.christmasEve (startDate := some (dayOf 2003 1 1)) (daysOfWeek := some [0, 1, 2, 3, 4])

/-- `Christmas`, `exchange_calendar_xlis.py` line 92. -/
def christmas : Rule := TC.christmas

/-- `BoxingDay`, `exchange_calendar_xlis.py` line 93. -/
def boxingDay : Rule := TC.boxingDay

/-- `NewYearsEve`, `exchange_calendar_xlis.py` line 95. -/
def newYearsEve : Rule := TC.newYearsEve (daysOfWeek := some [0, 1, 2, 3, 4])

/-- `regular_early_close`, `exchange_calendar_xlis.py` line 125. -/
def regularEarlyClose : Int := hm 13 5

/-- `tz`, `exchange_calendar_xlis.py` line 132. -/
def zone : Tz := Zones.europeLisbon

/-- `open_times`, `exchange_calendar_xlis.py` lines 134-136. -/
def openTimes : TimeTable := [(none, hm 8 1)]

/-- `close_times`, `exchange_calendar_xlis.py` lines 138-140. -/
def closeTimes : TimeTable := [(none, hm 16 30)]

/-- `regular_holidays`, `exchange_calendar_xlis.py` lines 142-162. -/
def regular : List Rule :=
  [TC.Xlis.newYearsDay, TC.Xlis.carnival, TC.goodFriday, TC.easterMonday, TC.Xlis.corpusChristi,
   TC.Xlis.libertyDay, TC.Xlis.labourDay, TC.Xlis.portugalDay, TC.Xlis.saintAnthonysDay,
   TC.Xlis.assumptionDay, TC.Xlis.republicDay, TC.Xlis.allSaintsDay, TC.Xlis.independenceDay,
   TC.Xlis.immaculateConception, TC.Xlis.christmasEveBefore2003, TC.Xlis.christmas,
   TC.Xlis.boxingDay]

/-- `special_closes`, `exchange_calendar_xlis.py` lines 164-171. -/
def specialCloses : List (Int × List Rule) :=
  [(regularEarlyClose, [TC.Xlis.christmasEve, TC.Xlis.newYearsEve])]

/-- `XLISExchangeCalendar`, `exchange_calendar_xlis.py` lines 98-171. -/
def exchange : Exchange :=
  { regular := TC.Xlis.regular
    openTimes := TC.Xlis.openTimes
    closeTimes := TC.Xlis.closeTimes
    specialCloses := TC.Xlis.specialCloses }

end TC.Xlis
