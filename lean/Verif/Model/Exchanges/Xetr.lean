import Verif.Model.Exchange
import Verif.Model.Zones

/-! `/repo/trading_calendars/exchange_calendar_xetr.py`, translated by `tools/gen_exchanges.py`. -/

namespace TC.Xetr

/-- `NewYearsDay`, `exchange_calendar_xetr.py` line 44. -/
def newYearsDay : Rule := TC.newYearsDay

/-- `EuropeanLabourDay`, `exchange_calendar_xetr.py` line 46. -/
def europeanLabourDay : Rule := TC.europeanLabourDay

/-- `WhitMonday2007AdHoc`, `exchange_calendar_xetr.py` line 50. -/
def whitMonday2007AdHoc : Int := dayOf 2007 5 28

/-- `WhitMonday`, `exchange_calendar_xetr.py` line 52. -/
def whitMonday : Rule := TC.whitMonday (startDate := some (dayOf 2015 1 1))

/-- `DayOfGermanUnity`, `exchange_calendar_xetr.py` lines 54-59. -/
def dayOfGermanUnity : Rule := { month := 10, day := 3, startDate := some (dayOf 2014 1 1) }

/-- `ReformationDay500thAnniversaryAdHoc`, `exchange_calendar_xetr.py` line 62. -/
def reformationDay500thAnniversaryAdHoc : Int := dayOf 2017 10 31

/-- `ChristmasEve`, `exchange_calendar_xetr.py` line 64. -/
def christmasEve : Rule := TC.christmasEve

/-- `Christmas`, `exchange_calendar_xetr.py` line 66. -/
def christmas : Rule := TC.christmas

/-- `BoxingDay`, `exchange_calendar_xetr.py` line 68. -/
def boxingDay : Rule := TC.boxingDay

/-- `NewYearsEve`, `exchange_calendar_xetr.py` line 70. -/
def newYearsEve : Rule := TC.newYearsEve

/-- `LastWorkingDay`, `exchange_calendar_xetr.py` lines 76-82. -/
def lastWorkingDay : Rule :=
  { month := 12, day := 31, observance := some .previousWorkday,
    startDate := some (dayOf 2010 1 1) }

/-- `regular_early_close`, `exchange_calendar_xetr.py` line 107. -/
def regularEarlyClose : Int := hm 14 0

/-- `tz`, `exchange_calendar_xetr.py` line 111. -/
def zone : Tz := Zones.cet

/-- `open_times`, `exchange_calendar_xetr.py` lines 113-115. -/
def openTimes : TimeTable := [(none, hm 9 1)]

/-- `close_times`, `exchange_calendar_xetr.py` lines 117-119. -/
def closeTimes : TimeTable := [(none, hm 17 30)]

/-- `regular_holidays`, `exchange_calendar_xetr.py` lines 121-134. -/
def regular : List Rule :=
  [TC.Xetr.newYearsDay, TC.goodFriday, TC.easterMonday, TC.Xetr.europeanLabourDay,
   TC.Xetr.whitMonday, TC.Xetr.dayOfGermanUnity, TC.Xetr.christmasEve, TC.Xetr.christmas,
   TC.Xetr.boxingDay, TC.Xetr.newYearsEve]

/-- `adhoc_holidays`, `exchange_calendar_xetr.py` lines 136-141. -/
def adhoc : List Int := [TC.Xetr.whitMonday2007AdHoc, TC.Xetr.reformationDay500thAnniversaryAdHoc]

/-- `special_closes`, `exchange_calendar_xetr.py` lines 143-149. -/
def specialCloses : List (Int × List Rule) := [(regularEarlyClose, [TC.Xetr.lastWorkingDay])]

/-- `XETRExchangeCalendar`, `exchange_calendar_xetr.py` lines 85-149. -/
def exchange : Exchange :=
  { regular := TC.Xetr.regular
    adhoc := TC.Xetr.adhoc
    openTimes := TC.Xetr.openTimes
    closeTimes := TC.Xetr.closeTimes
    specialCloses := TC.Xetr.specialCloses }

end TC.Xetr
