import Verif.Model.Exchange
import Verif.Model.Zones

/-! `/repo/trading_calendars/exchange_calendar_xmil.py`, translated by `tools/gen_exchanges.py`. -/

namespace TC.Xmil

/-- `NewYearsDay`, `exchange_calendar_xmil.py` line 31. -/
def newYearsDay : Rule := TC.newYearsDay

/-- `LabourDay`, `exchange_calendar_xmil.py` line 33. -/
def labourDay : Rule := TC.europeanLabourDay

/-- `Ferragosto`, `exchange_calendar_xmil.py` line 35. -/
def ferragosto : Rule := { month := 8, day := 15 }

/-- `ChristmasEve`, `exchange_calendar_xmil.py` line 37. -/
def christmasEve : Rule := TC.christmasEve

/-- `Christmas`, `exchange_calendar_xmil.py` line 38. -/
def christmas : Rule := TC.christmas

/-- `BoxingDay`, `exchange_calendar_xmil.py` line 39. -/
def boxingDay : Rule := TC.boxingDay

/-- `NewYearsEve`, `exchange_calendar_xmil.py` line 41. -/
def newYearsEve : Rule := TC.newYearsEve

/-- `tz`, `exchange_calendar_xmil.py` line 68. -/
def zone : Tz := Zones.europeRome

/-- `open_times`, `exchange_calendar_xmil.py` lines 70-72. -/
def openTimes : TimeTable := [(none, hm 9 1)]

/-- `close_times`, `exchange_calendar_xmil.py` lines 74-76. -/
def closeTimes : TimeTable := [(none, hm 17 30)]

/-- `regular_holidays`, `exchange_calendar_xmil.py` lines 78-90. -/
def regular : List Rule :=
  [TC.Xmil.newYearsDay, TC.goodFriday, TC.easterMonday, TC.Xmil.labourDay, TC.Xmil.ferragosto,
   TC.Xmil.christmasEve, TC.Xmil.christmas, TC.Xmil.boxingDay, TC.Xmil.newYearsEve]

/-- `XMILExchangeCalendar`, `exchange_calendar_xmil.py` lines 44-90. -/
def exchange : Exchange :=
  { regular := TC.Xmil.regular
    openTimes := TC.Xmil.openTimes
    closeTimes := TC.Xmil.closeTimes }

end TC.Xmil
