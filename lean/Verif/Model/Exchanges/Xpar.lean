import Verif.Model.Exchange
import Verif.Model.Zones

/-! `/repo/trading_calendars/exchange_calendar_xpar.py`, translated by `tools/gen_exchanges.py`. -/

namespace TC.Xpar

/-- `NewYearsDay`, `exchange_calendar_xpar.py` line 32. -/
def newYearsDay : Rule := TC.newYearsDay

/-- `WhitMonday`, `exchange_calendar_xpar.py` line 34. -/
def whitMonday : Rule := TC.whitMonday (endDate := some (dayOf 2002 1 1))

/-- `LabourDay`, `exchange_calendar_xpar.py` line 36. -/
def labourDay : Rule := TC.europeanLabourDay

/-- `BastilleDay`, `exchange_calendar_xpar.py` lines 38-43. -/
def bastilleDay : Rule := { month := 7, day := 14, endDate := some (dayOf 2002 1 1) }

/-- `ChristmasEve`, `exchange_calendar_xpar.py` line 45. -/
def christmasEve : Rule := TC.christmasEve (daysOfWeek := some [0, 1, 2, 3, 4])

/-- `Christmas`, `exchange_calendar_xpar.py` line 46. -/
def christmas : Rule := TC.christmas

/-- `BoxingDay`, `exchange_calendar_xpar.py` line 47. -/
def boxingDay : Rule := TC.boxingDay

/-- `NewYearsEveBefore2002`, `exchange_calendar_xpar.py` line 49. -/
def newYearsEveBefore2002 : Rule := TC.newYearsEve (endDate := some (dayOf 2002 1 1))

/-- `NewYearsEveInOrAfter2002`, `exchange_calendar_xpar.py` lines 50-53. -/
def newYearsEveInOrAfter2002 : Rule :=
  TC.newYearsEve (startDate := some (dayOf 2002 1 1)) (daysOfWeek := some [0, 1, 2, 3, 4])

/-- `regular_early_close`, `exchange_calendar_xpar.py` line 82. -/
def regularEarlyClose : Int := hm 14 5

/-- `tz`, `exchange_calendar_xpar.py` line 89. -/
def zone : Tz := Zones.europeParis

/-- `open_times`, `exchange_calendar_xpar.py` lines 91-93. -/
def openTimes : TimeTable := [(none, hm 9 1)]

/-- `close_times`, `exchange_calendar_xpar.py` lines 95-97. -/
def closeTimes : TimeTable := [(none, hm 17 30)]

/-- `regular_holidays`, `exchange_calendar_xpar.py` lines 99-111. -/
def regular : List Rule :=
  [TC.Xpar.newYearsDay, TC.goodFriday, TC.easterMonday, TC.Xpar.whitMonday, TC.Xpar.labourDay,
   TC.Xpar.bastilleDay, TC.Xpar.christmas, TC.Xpar.boxingDay, TC.Xpar.newYearsEveBefore2002]

/-- `special_closes`, `exchange_calendar_xpar.py` lines 113-120. -/
def specialCloses : List (Int × List Rule) :=
  [(regularEarlyClose, [TC.Xpar.christmasEve, TC.Xpar.newYearsEveInOrAfter2002])]

/-- `XPARExchangeCalendar`, `exchange_calendar_xpar.py` lines 56-120. -/
def exchange : Exchange :=
  { regular := TC.Xpar.regular
    openTimes := TC.Xpar.openTimes
    closeTimes := TC.Xpar.closeTimes
    specialCloses := TC.Xpar.specialCloses }

end TC.Xpar
