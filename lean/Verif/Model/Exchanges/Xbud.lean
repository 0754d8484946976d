import Verif.Model.Exchange
import Verif.Model.Zones

/-! `/repo/trading_calendars/exchange_calendar_xbud.py`, translated by `tools/gen_exchanges.py`. -/

namespace TC.Xbud

/-- `NewYearsDay`, `exchange_calendar_xbud.py` line 54. -/
def newYearsDay : Rule := TC.newYearsDay (observance := some .fourDayWeekend)

/-- `NationalHoliday1`, `exchange_calendar_xbud.py` lines 56-61. -/
def nationalHoliday1 : Rule := { month := 3, day := 15, observance := some .fourDayWeekend }

/-- `GoodFriday`, `exchange_calendar_xbud.py` lines 64-70. -/
def goodFriday : Rule :=
  { month := 1, day := 1, offsets := [.easter, .days (-2)], startDate := some (dayOf 2012 1 1) }

/-- `LabourDay`, `exchange_calendar_xbud.py` line 72. -/
def labourDay : Rule := TC.europeanLabourDay (observance := some .fourDayWeekend)

/-- `WhitMonday`, `exchange_calendar_xbud.py` line 74. -/
def whitMonday : Rule := TC.whitMonday

/-- `StStephensDay`, `exchange_calendar_xbud.py` lines 76-81. -/
def stStephensDay : Rule := { month := 8, day := 20, observance := some .fourDayWeekend }

/-- `NationalHoliday2`, `exchange_calendar_xbud.py` lines 83-88. -/
def nationalHoliday2 : Rule := { month := 10, day := 23, observance := some .fourDayWeekend }

/-- `AllSaintsDay`, `exchange_calendar_xbud.py` line 90. -/
def allSaintsDay : Rule := TC.allSaintsDay (observance := some .fourDayWeekend)

/-- `ChristmasEve`, `exchange_calendar_xbud.py` line 93. -/
def christmasEve : Rule := TC.christmasEve

/-- `ChristmasDay`, `exchange_calendar_xbud.py` line 95. -/
def christmasDay : Rule := TC.christmas

/-- `SecondDayOfChristmas`, `exchange_calendar_xbud.py` lines 100-105. -/
def secondDayOfChristmas : Rule := { month := 12, day := 26, endDate := some (dayOf 2013 1 1) }

/-- `SecondDayOfChristmasAddFriday`, `exchange_calendar_xbud.py` lines 107-113. -/
def secondDayOfChristmasAddFriday : Rule :=
  { month := 12, day := 26, observance := some .fourDayWeekend,
    startDate := some (dayOf 2013 1 1) }

/-- `NewYearsEve`, `exchange_calendar_xbud.py` line 120. -/
def newYearsEve : Rule := TC.newYearsEve (startDate := some (dayOf 2011 1 1))

/-- `tz`, `exchange_calendar_xbud.py` line 150. -/
def zone : Tz := Zones.europeBudapest

/-- `open_times`, `exchange_calendar_xbud.py` lines 152-154. -/
def openTimes : TimeTable := [(none, hm 9 1)]

/-- `close_times`, `exchange_calendar_xbud.py` lines 156-158. -/
def closeTimes : TimeTable := [(none, hm 17 0)]

/-- `regular_holidays`, `exchange_calendar_xbud.py` lines 160-177. -/
def regular : List Rule :=
  [TC.Xbud.newYearsDay, TC.Xbud.nationalHoliday1, TC.Xbud.goodFriday, TC.easterMonday,
   TC.Xbud.labourDay, TC.Xbud.whitMonday, TC.Xbud.stStephensDay, TC.Xbud.nationalHoliday2,
   TC.Xbud.allSaintsDay, TC.Xbud.christmasEve, TC.Xbud.christmasDay, TC.Xbud.secondDayOfChristmas,
   TC.Xbud.secondDayOfChristmasAddFriday, TC.Xbud.newYearsEve]

/-- `XBUDExchangeCalendar`, `exchange_calendar_xbud.py` lines 123-177. -/
def exchange : Exchange :=
  { regular := TC.Xbud.regular
    openTimes := TC.Xbud.openTimes
    closeTimes := TC.Xbud.closeTimes }

end TC.Xbud
