import Verif.Model.Exchange
import Verif.Model.Zones

/-! `/repo/trading_calendars/exchange_calendar_xdub.py`, translated by `tools/gen_exchanges.py`. -/

namespace TC.Xdub

/-- `NewYearsDay`, `exchange_calendar_xdub.py` line 41. -/
def newYearsDay : Rule := TC.newYearsDay (observance := some .weekendToMonday)

/-- `StPatricksDay`, `exchange_calendar_xdub.py` lines 43-49. -/
def stPatricksDay : Rule :=
  { month := 3, day := 17, observance := some .weekendToMonday, endDate := some (dayOf 2001 1 1) }

/-- `LabourDayTo2009`, `exchange_calendar_xdub.py` lines 51-55. -/
def labourDayTo2009 : Rule :=
  TC.europeanLabourDay (startDate := some (dayOf 2008 1 1)) (endDate := some (dayOf 2010 1 1)) (observance := some .weekendToMonday)

/-- `LabourDayFrom2019`, `exchange_calendar_xdub.py` lines 57-60. -/
def labourDayFrom2019 : Rule :=
  TC.europeanLabourDay (startDate := some (dayOf 2019 1 1)) (observance := some .weekendToMonday)

/-- `MayBankHoliday`, `exchange_calendar_xdub.py` lines 62-68. -/
def mayBankHoliday : Rule :=
  { month := 5, day := 1, offsets := [.weekday 0 1], endDate := some (dayOf 2019 1 1) }

/-- `JuneBankHoliday`, `exchange_calendar_xdub.py` lines 69-75. -/
def juneBankHoliday : Rule :=
  { month := 6, day := 1, offsets := [.weekday 0 1], endDate := some (dayOf 2019 1 1) }

/-- `LastTradingDayBeforeChristmas`, `exchange_calendar_xdub.py` lines 77-83. -/
def lastTradingDayBeforeChristmas : Rule :=
  { month := 12, day := 24, observance := some .previousFriday,
    startDate := some (dayOf 2010 1 1) }

/-- `ChristmasEve`, `exchange_calendar_xdub.py` line 85. -/
def christmasEve : Rule := TC.christmasEve (endDate := some (dayOf 2005 1 1))

/-- `Christmas`, `exchange_calendar_xdub.py` line 86. -/
def christmas : Rule := TC.christmas

/-- `WeekendChristmas`, `exchange_calendar_xdub.py` line 87. -/
def weekendChristmas : Rule := TC.weekendChristmas

/-- `BoxingDay`, `exchange_calendar_xdub.py` line 88. -/
def boxingDay : Rule := TC.boxingDay

/-- `WeekendBoxingDay`, `exchange_calendar_xdub.py` line 89. -/
def weekendBoxingDay : Rule := TC.weekendBoxingDay

/-- `LastTradingDayOfCalendarYear`, `exchange_calendar_xdub.py` lines 91-97. -/
def lastTradingDayOfCalendarYear : Rule :=
  { month := 12, day := 31, observance := some .previousFriday,
    startDate := some (dayOf 2010 1 1) }

/-- `March1BadWeather`, `exchange_calendar_xdub.py` line 100. -/
def march1BadWeather : Int := dayOf 2018 3 1

/-- `March2BadWeather`, `exchange_calendar_xdub.py` line 101. -/
def march2BadWeather : Int := dayOf 2018 3 2

/-- `tz`, `exchange_calendar_xdub.py` line 129. -/
def zone : Tz := Zones.europeDublin

/-- `open_times`, `exchange_calendar_xdub.py` lines 130-132. -/
def openTimes : TimeTable := [(none, hm 8 1)]

/-- `close_times`, `exchange_calendar_xdub.py` lines 133-135. -/
def closeTimes : TimeTable := [(none, hm 16 28)]

/-- `regular_early_close`, `exchange_calendar_xdub.py` line 136. -/
def regularEarlyClose : Int := hm 12 28

/-- `regular_holidays`, `exchange_calendar_xdub.py` lines 138-154. -/
def regular : List Rule :=
  [TC.Xdub.newYearsDay, TC.Xdub.stPatricksDay, TC.goodFriday, TC.easterMonday,
   TC.Xdub.labourDayTo2009, TC.Xdub.labourDayFrom2019, TC.Xdub.mayBankHoliday,
   TC.Xdub.juneBankHoliday, TC.Xdub.christmasEve, TC.Xdub.christmas, TC.Xdub.weekendChristmas,
   TC.Xdub.boxingDay, TC.Xdub.weekendBoxingDay]

/-- `adhoc_holidays`, `exchange_calendar_xdub.py` lines 156-158. -/
def adhoc : List Int := [TC.Xdub.march2BadWeather]

/-- `special_closes`, `exchange_calendar_xdub.py` lines 160-170. -/
def specialCloses : List (Int × List Rule) :=
  [(regularEarlyClose, [TC.Xdub.lastTradingDayBeforeChristmas,
    TC.Xdub.lastTradingDayOfCalendarYear])]

/-- `special_closes_adhoc`, `exchange_calendar_xdub.py` lines 172-174. -/
def specialClosesAdhoc : List (Int × List Int) := [(regularEarlyClose, [TC.Xdub.march1BadWeather])]

/-- `XDUBExchangeCalendar`, `exchange_calendar_xdub.py` lines 104-174. -/
def exchange : Exchange :=
  { regular := TC.Xdub.regular
    adhoc := TC.Xdub.adhoc
    openTimes := TC.Xdub.openTimes
    closeTimes := TC.Xdub.closeTimes
    specialCloses := TC.Xdub.specialCloses
    specialClosesAdhoc := TC.Xdub.specialClosesAdhoc }

end TC.Xdub
