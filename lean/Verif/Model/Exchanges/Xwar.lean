import Verif.Model.Exchange
import Verif.Model.Zones

/-! `/repo/trading_calendars/exchange_calendar_xwar.py`, translated by `tools/gen_exchanges.py`. -/

namespace TC.Xwar

/-- `NewYearsDay`, `exchange_calendar_xwar.py` line 48. -/
def newYearsDay : Rule := TC.newYearsDay

/-- `Epiphany`, `exchange_calendar_xwar.py` line 50. -/
def epiphany : Rule := TC.epiphany (startDate := some (dayOf 2011 1 1))

/-- `LabourDay`, `exchange_calendar_xwar.py` line 52. -/
def labourDay : Rule := TC.europeanLabourDay

/-- `May3ConstitutionDay`, `exchange_calendar_xwar.py` lines 54-58. -/
def may3ConstitutionDay : Rule := { month := 5, day := 3 }

/-- `CorpusChristi`, `exchange_calendar_xwar.py` line 60. -/
def corpusChristi : Rule := TC.corpusChristi

/-- `ArmedForcesDay`, `exchange_calendar_xwar.py` lines 62-66. -/
def armedForcesDay : Rule := { month := 8, day := 15 }

/-- `AllSaintsDay`, `exchange_calendar_xwar.py` line 68. -/
def allSaintsDay : Rule := TC.allSaintsDay

/-- `IndependenceDay`, `exchange_calendar_xwar.py` lines 70-74. -/
def independenceDay : Rule := { month := 11, day := 11 }

/-- `ChristmasEve`, `exchange_calendar_xwar.py` line 76. -/
def christmasEve : Rule := TC.christmasEve (observance := some (.notYear 2004))

/-- `Christmas`, `exchange_calendar_xwar.py` line 77. -/
def christmas : Rule := TC.christmas

/-- `BoxingDay`, `exchange_calendar_xwar.py` line 78. -/
def boxingDay : Rule := TC.boxingDay

/-- `NewYearsEve`, `exchange_calendar_xwar.py` line 80. -/
def newYearsEve : Rule := TC.newYearsEve (startDate := some (dayOf 2011 1 1))

/-- `tz`, `exchange_calendar_xwar.py` line 114. -/
def zone : Tz := Zones.europeWarsaw

/-- `open_times`, `exchange_calendar_xwar.py` lines 116-118. -/
def openTimes : TimeTable := [(none, hm 9 1)]

/-- `close_times`, `exchange_calendar_xwar.py` lines 119-121. -/
def closeTimes : TimeTable := [(none, hm 17 0)]

/-- `regular_holidays`, `exchange_calendar_xwar.py` lines 123-140. -/
def regular : List Rule :=
  [TC.Xwar.newYearsDay, TC.Xwar.epiphany, TC.goodFriday, TC.easterMonday, TC.Xwar.labourDay,
   TC.Xwar.may3ConstitutionDay, TC.Xwar.corpusChristi, TC.Xwar.armedForcesDay, TC.Xwar.allSaintsDay,
   TC.Xwar.independenceDay, TC.Xwar.christmasEve, TC.Xwar.christmas, TC.Xwar.boxingDay,
   TC.Xwar.newYearsEve]

/-- `adhoc_holidays`, `exchange_calendar_xwar.py` lines 142-152. -/
def adhoc : List Int :=
  [dayOf 2005 4 8, dayOf 2007 12 31, dayOf 2008 5 2, dayOf 2009 1 2, dayOf 2013 4 16,
   dayOf 2018 1 2, dayOf 2018 11 12]

/-- `XWARExchangeCalendar`, `exchange_calendar_xwar.py` lines 83-152. -/
def exchange : Exchange :=
  { regular := TC.Xwar.regular
    adhoc := TC.Xwar.adhoc
    openTimes := TC.Xwar.openTimes
    closeTimes := TC.Xwar.closeTimes }

end TC.Xwar
