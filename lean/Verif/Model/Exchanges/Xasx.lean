import Verif.Model.Exchange
import Verif.Model.Zones

/-! `/repo/trading_calendars/exchange_calendar_xasx.py`, translated by `tools/gen_exchanges.py`. -/

namespace TC.Xasx

/-- `NewYearsDay`, `exchange_calendar_xasx.py` line 41. -/
def newYearsDay : Rule := TC.newYearsDay (observance := some .weekendToMonday)

/-- `AustraliaDay`, `exchange_calendar_xasx.py` lines 47-53. -/
def australiaDay : Rule :=
  { month := 1, day := 26, observance := some .weekendToMonday,
    startDate := some (dayOf 1994 1 1) }

/-- `AustraliaDayPre88`, `exchange_calendar_xasx.py` lines 57-60. -/
def australiaDayPre88 : Rule :=
  { month := 1, day := 26, offsets := [.weekday 0 1], startDate := some (dayOf 1960 1 1),
    endDate := some (dayOf 1987 12 31) }

/-- `AustraliaDay1988`, `exchange_calendar_xasx.py` lines 63-65. -/
def australiaDay1988 : Rule :=
  { month := 1, day := 26, startDate := some (dayOf 1988 1 1),
    endDate := some (dayOf 1988 12 31) }

/-- `AustraliaDayPost88Pre93`, `exchange_calendar_xasx.py` lines 68-71. -/
def australiaDayPost88Pre93 : Rule :=
  { month := 1, day := 26, offsets := [.weekday 0 1], startDate := some (dayOf 1989 1 1),
    endDate := some (dayOf 1992 12 31) }

/-- `AnzacDayNonMondayized`, `exchange_calendar_xasx.py` line 76. -/
def anzacDayNonMondayized : Rule := TC.anzacDay (endDate := some (dayOf 2010 1 1))

/-- `AnzacDay2010`, `exchange_calendar_xasx.py` lines 77-78. -/
def anzacDay2010 : Rule :=
  TC.anzacDay (observance := some .sundayToMonday) (startDate := some (dayOf 2010 1 1)) (endDate := some (dayOf 2011 1 1))

/-- `AnzacDay`, `exchange_calendar_xasx.py` line 79. -/
def anzacDay : Rule := TC.anzacDay (startDate := some (dayOf 2011 1 1))

/-- `EasterTuesday2011AdHoc`, `exchange_calendar_xasx.py` line 85. -/
def easterTuesday2011AdHoc : Int := dayOf 2011 4 26

/-- `QueensBirthday`, `exchange_calendar_xasx.py` lines 87-92. -/
def queensBirthday : Rule := { month := 6, day := 1, offsets := [.weekday 0 2] }

/-- `LastTradingDayBeforeChristmas`, `exchange_calendar_xasx.py` lines 94-100. -/
def lastTradingDayBeforeChristmas : Rule :=
  { month := 12, day := 24, observance := some .previousFriday,
    startDate := some (dayOf 2010 1 1) }

/-- `Christmas`, `exchange_calendar_xasx.py` line 101. -/
def christmas : Rule := TC.christmas

/-- `WeekendChristmas`, `exchange_calendar_xasx.py` line 102. -/
def weekendChristmas : Rule := TC.weekendChristmas

/-- `BoxingDay`, `exchange_calendar_xasx.py` line 103. -/
def boxingDay : Rule := TC.boxingDay

/-- `WeekendBoxingDay`, `exchange_calendar_xasx.py` line 104. -/
def weekendBoxingDay : Rule := TC.weekendBoxingDay

/-- `LastTradingDayOfCalendarYear`, `exchange_calendar_xasx.py` lines 106-112. -/
def lastTradingDayOfCalendarYear : Rule :=
  { month := 12, day := 31, observance := some .previousFriday,
    startDate := some (dayOf 2010 1 1) }

/-- `NYEMonday1984AdHoc`, `exchange_calendar_xasx.py` line 115. -/
def nyeMonday1984AdHoc : Int := dayOf 1984 12 31

/-- `NYEMonday1990AdHoc`, `exchange_calendar_xasx.py` line 116. -/
def nyeMonday1990AdHoc : Int := dayOf 1990 12 31

/-- `Bicentennial1988`, `exchange_calendar_xasx.py` line 117. -/
def bicentennial1988 : Int := dayOf 1988 1 25

/-- `Y2KTesting`, `exchange_calendar_xasx.py` line 118. -/
def y2KTesting : Int := dayOf 1999 12 31

/-- `regular_early_close`, `exchange_calendar_xasx.py` line 142. -/
def regularEarlyClose : Int := hm 14 10

/-- `tz`, `exchange_calendar_xasx.py` line 146. -/
def zone : Tz := Zones.australiaSydney

/-- `open_times`, `exchange_calendar_xasx.py` lines 148-150. -/
def openTimes : TimeTable := [(none, hm 10 1)]

/-- `close_times`, `exchange_calendar_xasx.py` lines 152-154. -/
def closeTimes : TimeTable := [(none, hm 16 0)]

/-- `regular_holidays`, `exchange_calendar_xasx.py` lines 156-174. -/
def regular : List Rule :=
  [TC.Xasx.newYearsDay, TC.Xasx.australiaDay, TC.Xasx.australiaDayPre88, TC.Xasx.australiaDay1988,
   TC.Xasx.australiaDayPost88Pre93, TC.goodFriday, TC.easterMonday, TC.Xasx.anzacDayNonMondayized,
   TC.Xasx.anzacDay2010, TC.Xasx.anzacDay, TC.Xasx.queensBirthday, TC.Xasx.christmas,
   TC.Xasx.weekendChristmas, TC.Xasx.boxingDay, TC.Xasx.weekendBoxingDay]

/-- `adhoc_holidays`, `exchange_calendar_xasx.py` lines 176-179. -/
def adhoc : List Int :=
  [TC.Xasx.easterTuesday2011AdHoc, TC.Xasx.nyeMonday1984AdHoc, TC.Xasx.nyeMonday1990AdHoc,
   TC.Xasx.bicentennial1988, TC.Xasx.y2KTesting]

/-- `special_closes`, `exchange_calendar_xasx.py` lines 181-191. -/
def specialCloses : List (Int × List Rule) :=
  [(regularEarlyClose, [TC.Xasx.lastTradingDayBeforeChristmas,
    TC.Xasx.lastTradingDayOfCalendarYear])]

/-- `XASXExchangeCalendar`, `exchange_calendar_xasx.py` lines 121-191. -/
def exchange : Exchange :=
  { regular := TC.Xasx.regular
    adhoc := TC.Xasx.adhoc
    openTimes := TC.Xasx.openTimes
    closeTimes := TC.Xasx.closeTimes
    specialCloses := TC.Xasx.specialCloses }

end TC.Xasx
