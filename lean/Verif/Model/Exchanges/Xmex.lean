import Verif.Model.Exchange
import Verif.Model.Zones

/-! `/repo/trading_calendars/exchange_calendar_xmex.py`, translated by `tools/gen_exchanges.py`. -/

namespace TC.Xmex

/-- `NewYearsDay`, `exchange_calendar_xmex.py` line 32. -/
def newYearsDay : Rule := TC.newYearsDay

/-- `ConstitutionDay`, `exchange_calendar_xmex.py` line 35. -/
def constitutionDay : Rule := { month := 2, day := 5, endDate := some (dayOf 2007 1 1) }

/-- `ConstitutionDayObserved`, `exchange_calendar_xmex.py` lines 36-42. -/
def constitutionDayObserved : Rule :=
  { month := 2, day := 1, offsets := [.weekday 0 1], startDate := some (dayOf 2007 1 1) }

/-- `JuarezBirthday`, `exchange_calendar_xmex.py` line 45. -/
def juarezBirthday : Rule := { month := 3, day := 21, endDate := some (dayOf 2007 1 1) }

/-- `JuarezBirthdayObserved`, `exchange_calendar_xmex.py` lines 46-52. -/
def juarezBirthdayObserved : Rule :=
  { month := 3, day := 1, offsets := [.weekday 0 3], startDate := some (dayOf 2007 1 1) }

/-- `MaundyThursday`, `exchange_calendar_xmex.py` line 54. -/
def maundyThursday : Rule := TC.maundyThursday

/-- `LabourDay`, `exchange_calendar_xmex.py` line 56. -/
def labourDay : Rule := TC.europeanLabourDay

/-- `IndependenceDay`, `exchange_calendar_xmex.py` line 58. -/
def independenceDay : Rule := { month := 9, day := 16 }

/-- `AllSoulsDay`, `exchange_calendar_xmex.py` line 60. -/
def allSoulsDay : Rule := { month := 11, day := 2, startDate := some (dayOf 2006 1 1) }

/-- `RevolutionDay`, `exchange_calendar_xmex.py` line 63. -/
def revolutionDay : Rule := { month := 11, day := 20, endDate := some (dayOf 2007 1 1) }

/-- `RevolutionDayObserved`, `exchange_calendar_xmex.py` lines 64-70. -/
def revolutionDayObserved : Rule :=
  { month := 11, day := 1, offsets := [.weekday 0 3], startDate := some (dayOf 2007 1 1) }

/-- `BankingHoliday`, `exchange_calendar_xmex.py` line 72. -/
def bankingHoliday : Rule := { month := 12, day := 12 }

/-- `Christmas`, `exchange_calendar_xmex.py` line 74. -/
def christmas : Rule := TC.christmas

/-- `tz`, `exchange_calendar_xmex.py` line 105. -/
def zone : Tz := Zones.americaMexicoCity

/-- `open_times`, `exchange_calendar_xmex.py` lines 107-109. -/
def openTimes : TimeTable := [(none, hm 8 31)]

/-- `close_times`, `exchange_calendar_xmex.py` lines 110-112. -/
def closeTimes : TimeTable := [(none, hm 15 0)]

/-- `regular_holidays`, `exchange_calendar_xmex.py` lines 114-131. -/
def regular : List Rule :=
  [TC.Xmex.newYearsDay, TC.Xmex.constitutionDay, TC.Xmex.constitutionDayObserved,
   TC.Xmex.juarezBirthday, TC.Xmex.juarezBirthdayObserved, TC.Xmex.maundyThursday, TC.goodFriday,
   TC.Xmex.labourDay, TC.Xmex.independenceDay, TC.Xmex.allSoulsDay, TC.Xmex.revolutionDay,
   TC.Xmex.revolutionDayObserved, TC.Xmex.bankingHoliday, TC.Xmex.christmas]

/-- `adhoc_holidays`, `exchange_calendar_xmex.py` lines 133-138. -/
def adhoc : List Int := [dayOf 2010 9 17]

/-- `XMEXExchangeCalendar`, `exchange_calendar_xmex.py` lines 77-138. -/
def exchange : Exchange :=
  { regular := TC.Xmex.regular
    adhoc := TC.Xmex.adhoc
    openTimes := TC.Xmex.openTimes
    closeTimes := TC.Xmex.closeTimes }

end TC.Xmex
