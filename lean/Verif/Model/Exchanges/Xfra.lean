import Verif.Model.Exchange
import Verif.Model.Zones

/-! `/repo/trading_calendars/exchange_calendar_xfra.py`, translated by `tools/gen_exchanges.py`. -/

namespace TC.Xfra

/-- `NewYearsDay`, `exchange_calendar_xfra.py` line 44. -/
def newYearsDay : Rule := TC.newYearsDay

/-- `EuropeanLabourDay`, `exchange_calendar_xfra.py` line 46. -/
def europeanLabourDay : Rule := TC.europeanLabourDay

/-- `WhitMonday2007AdHoc`, `exchange_calendar_xfra.py` line 50. -/
def whitMonday2007AdHoc : Int := dayOf 2007 5 28

/-- `WhitMonday`, `exchange_calendar_xfra.py` line 52. -/
def whitMonday : Rule := TC.whitMonday (startDate := some (dayOf 2015 1 1))

/-- `DayOfGermanUnity`, `exchange_calendar_xfra.py` lines 54-59. -/
def dayOfGermanUnity : Rule := { month := 10, day := 3, startDate := some (dayOf 2014 1 1) }

/-- `ReformationDay500thAnniversaryAdHoc`, `exchange_calendar_xfra.py` line 62. -/
def reformationDay500thAnniversaryAdHoc : Int := dayOf 2017 10 31

/-- `ChristmasEve`, `exchange_calendar_xfra.py` line 64. -/
def christmasEve : Rule := TC.christmasEve

/-- `Christmas`, `exchange_calendar_xfra.py` line 66. -/
def christmas : Rule := TC.christmas

/-- `BoxingDay`, `exchange_calendar_xfra.py` line 68. -/
def boxingDay : Rule := TC.boxingDay

/-- `NewYearsEve`, `exchange_calendar_xfra.py` line 70. -/
def newYearsEve : Rule := TC.newYearsEve

/-- `LastWorkingDay`, `exchange_calendar_xfra.py` lines 75-81. -/
def lastWorkingDay : Rule :=
  { month := 12, day := 31, observance := some .previousWorkday,
    startDate := some (dayOf 2010 1 1) }

/-- `regular_early_close`, `exchange_calendar_xfra.py` line 106. -/
def regularEarlyClose : Int := hm 12 30

/-- `tz`, `exchange_calendar_xfra.py` line 110. -/
def zone : Tz := Zones.cet

/-- `open_times`, `exchange_calendar_xfra.py` lines 112-114. -/
def openTimes : TimeTable := [(none, hm 9 1)]

/-- `close_times`, `exchange_calendar_xfra.py` lines 116-118. -/
def closeTimes : TimeTable := [(none, hm 17 30)]

/-- `regular_holidays`, `exchange_calendar_xfra.py` lines 120-133. -/
def regular : List Rule :=
  [TC.Xfra.newYearsDay, TC.goodFriday, TC.easterMonday, TC.Xfra.europeanLabourDay,
   TC.Xfra.whitMonday, TC.Xfra.dayOfGermanUnity, TC.Xfra.christmasEve, TC.Xfra.christmas,
   TC.Xfra.boxingDay, TC.Xfra.newYearsEve]

/-- `adhoc_holidays`, `exchange_calendar_xfra.py` lines 135-140. -/
def adhoc : List Int := [TC.Xfra.whitMonday2007AdHoc, TC.Xfra.reformationDay500thAnniversaryAdHoc]

/-- `special_closes`, `exchange_calendar_xfra.py` lines 142-148. -/
def specialCloses : List (Int × List Rule) := [(regularEarlyClose, [TC.Xfra.lastWorkingDay])]

/-- `XFRAExchangeCalendar`, `exchange_calendar_xfra.py` lines 84-148. -/
def exchange : Exchange :=
  { regular := TC.Xfra.regular
    adhoc := TC.Xfra.adhoc
    openTimes := TC.Xfra.openTimes
    closeTimes := TC.Xfra.closeTimes
    specialCloses := TC.Xfra.specialCloses }

end TC.Xfra
