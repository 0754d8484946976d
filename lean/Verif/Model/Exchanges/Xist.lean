import Verif.Model.Exchange
import Verif.Model.Exchanges.CommonHolidays
import Verif.Model.Zones

/-! `/repo/trading_calendars/exchange_calendar_xist.py`, translated by `tools/gen_exchanges.py`. -/

namespace TC.Xist

/-- `NewYearsDay`, `exchange_calendar_xist.py` line 36. -/
def newYearsDay : Rule := TC.newYearsDay

/-- `NationalSovereigntyAndChildrensDay`, `exchange_calendar_xist.py` lines 38-42. -/
def nationalSovereigntyAndChildrensDay : Rule := { month := 4, day := 23 }

/-- `LabourDay`, `exchange_calendar_xist.py` line 44. -/
def labourDay : Rule := TC.europeanLabourDay (startDate := some (dayOf 2009 1 1))

/-- `CommemorationOfAttaturkYouthAndSportsDay`, `exchange_calendar_xist.py` lines 46-50. -/
def commemorationOfAttaturkYouthAndSportsDay : Rule := { month := 5, day := 19 }

/-- `EidAlFitr1`, `exchange_calendar_xist.py` line 52. -/
def eidAlFitr1 : List Int := TC.CommonHolidays.eidAlFitrFirstDay

/-- `EidAlFitr2`, `exchange_calendar_xist.py` line 54. -/
def eidAlFitr2 : List Int := TC.CommonHolidays.eidAlFitrFirstDay.map (· + 1)

/-- `EidAlFitr3`, `exchange_calendar_xist.py` line 56. -/
def eidAlFitr3 : List Int := TC.CommonHolidays.eidAlFitrFirstDay.map (· + 2)

/-- `DemocracyAndNationalUnityDay`, `exchange_calendar_xist.py` lines 58-63. -/
def democracyAndNationalUnityDay : Rule :=
  { month := 7, day := 15, startDate := some (dayOf 2017 1 1) }

/-- `EidAlAdha1`, `exchange_calendar_xist.py` line 65. -/
def eidAlAdha1 : List Int := TC.CommonHolidays.eidAlAdhaFirstDay

/-- `EidAlAdha2`, `exchange_calendar_xist.py` line 67. -/
def eidAlAdha2 : List Int := TC.CommonHolidays.eidAlAdhaFirstDay.map (· + 1)

/-- `EidAlAdha3`, `exchange_calendar_xist.py` line 69. -/
def eidAlAdha3 : List Int := TC.CommonHolidays.eidAlAdhaFirstDay.map (· + 2)

/-- `EidAlAdha4`, `exchange_calendar_xist.py` line 71. -/
def eidAlAdha4 : List Int := TC.CommonHolidays.eidAlAdhaFirstDay.map (· + 3)

/-- `VictoryDay`, `exchange_calendar_xist.py` lines 73-77. -/
def victoryDay : Rule := { month := 8, day := 30 }

/-- `RepublicDay`, `exchange_calendar_xist.py` lines 79-83. -/
def republicDay : Rule := { month := 10, day := 29 }

/-- `DayBeforeEidAlFitr`, `exchange_calendar_xist.py` line 86. -/
def dayBeforeEidAlFitr : List Int := TC.CommonHolidays.eidAlFitrFirstDay.map (· - 1)

/-- `EidAlFitrHalfDay`, `exchange_calendar_xist.py` lines 88-90. -/
def eidAlFitrHalfDay : List Int :=
  TC.Xist.dayBeforeEidAlFitr.filter (fun d => !([5, 6].contains (weekday d)))

/-- `DayBeforeEidAlAdha`, `exchange_calendar_xist.py` line 92. -/
def dayBeforeEidAlAdha : List Int := TC.CommonHolidays.eidAlAdhaFirstDay.map (· - 1)

/-- `EidAlAdhaHalfDay`, `exchange_calendar_xist.py` lines 94-96. -/
def eidAlAdhaHalfDay : List Int :=
  TC.Xist.dayBeforeEidAlAdha.filter (fun d => !([5, 6].contains (weekday d)))

/-- `RepublicDayHalfDay`, `exchange_calendar_xist.py` lines 98-103. -/
def republicDayHalfDay : Rule := { month := 10, day := 28, daysOfWeek := some [0, 1, 2, 3, 4] }

/-- `tz`, `exchange_calendar_xist.py` line 131. -/
def zone : Tz := Zones.europeIstanbul

/-- `open_times`, `exchange_calendar_xist.py` lines 133-135. -/
def openTimes : TimeTable := [(none, hm 10 1)]

/-- `close_times`, `exchange_calendar_xist.py` lines 137-139. -/
def closeTimes : TimeTable := [(none, hm 18 0)]

/-- `regular_early_close`, `exchange_calendar_xist.py` line 141. -/
def regularEarlyClose : Int := hm 12 30

/-- `regular_holidays`, `exchange_calendar_xist.py` lines 143-153. -/
def regular : List Rule :=
  [TC.Xist.newYearsDay, TC.Xist.nationalSovereigntyAndChildrensDay, TC.Xist.labourDay,
   TC.Xist.commemorationOfAttaturkYouthAndSportsDay, TC.Xist.democracyAndNationalUnityDay,
   TC.Xist.victoryDay, TC.Xist.republicDay]

/-- `misc_adhoc`, `exchange_calendar_xist.py` lines 157-167. -/
def miscAdhoc : List Int :=
  [dayOf 2002 1 4, dayOf 2003 2 14, dayOf 2003 11 21, dayOf 2003 11 24, dayOf 2003 11 28,
   dayOf 2004 1 23, dayOf 2004 12 30, dayOf 2004 12 31, dayOf 2006 1 13]

/-- `adhoc_holidays`, `exchange_calendar_xist.py` lines 155-178. -/
def adhoc : List Int :=
  miscAdhoc ++ TC.Xist.eidAlFitr1 ++ TC.Xist.eidAlFitr2 ++ TC.Xist.eidAlFitr3 ++
    TC.Xist.eidAlAdha1 ++ TC.Xist.eidAlAdha2 ++ TC.Xist.eidAlAdha3 ++ TC.Xist.eidAlAdha4

/-- `special_closes`, `exchange_calendar_xist.py` lines 180-187. -/
def specialCloses : List (Int × List Rule) := [(regularEarlyClose, [TC.Xist.republicDayHalfDay])]

/-- `collisions`, `exchange_calendar_xist.py` lines 193-198. -/
def collisions : List Int := [dayOf 1994 5 19, dayOf 2003 11 24]

/-- `early_close_days`, `exchange_calendar_xist.py` line 200. -/
def earlyCloseDays : List Int := TC.Xist.eidAlFitrHalfDay ++ TC.Xist.eidAlAdhaHalfDay

/-- `early_close_days`, `exchange_calendar_xist.py` lines 202-204. -/
def earlyCloseDays2 : List Int := earlyCloseDays.filter (fun d => !(collisions.contains d))

/-- `special_closes_adhoc`, `exchange_calendar_xist.py` lines 189-208. -/
def specialClosesAdhoc : List (Int × List Int) := [(regularEarlyClose, earlyCloseDays2)]

/-- `XISTExchangeCalendar`, `exchange_calendar_xist.py` lines 106-208. -/
def exchange : Exchange :=
  { regular := TC.Xist.regular
    adhoc := TC.Xist.adhoc
    openTimes := TC.Xist.openTimes
    closeTimes := TC.Xist.closeTimes
    specialCloses := TC.Xist.specialCloses
    specialClosesAdhoc := TC.Xist.specialClosesAdhoc }

end TC.Xist
