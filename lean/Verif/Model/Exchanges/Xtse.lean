import Verif.Model.Exchange
import Verif.Model.Zones

/-! `/repo/trading_calendars/exchange_calendar_xtse.py`, translated by `tools/gen_exchanges.py`. -/

namespace TC.Xtse

/-- `XTSENewYearsDay`, `exchange_calendar_xtse.py` line 34. -/
def xtseNewYearsDay : Rule := TC.newYearsDay (observance := some .weekendToMonday)

/-- `FamilyDay`, `exchange_calendar_xtse.py` lines 37-43. -/
def familyDay : Rule :=
  { month := 2, day := 1, offsets := [.weekday 0 3], startDate := some (dayOf 2008 1 1) }

/-- `VictoriaDay`, `exchange_calendar_xtse.py` lines 45-50. -/
def victoriaDay : Rule := { month := 5, day := 24, offsets := [.weekday 0 (-1)] }

/-- `CanadaDay`, `exchange_calendar_xtse.py` lines 52-57. -/
def canadaDay : Rule := { month := 7, day := 1, observance := some .weekendToMonday }

/-- `CivicHoliday`, `exchange_calendar_xtse.py` lines 59-64. -/
def civicHoliday : Rule := { month := 8, day := 1, offsets := [.weekday 0 1] }

/-- `LaborDay`, `exchange_calendar_xtse.py` lines 66-71. -/
def laborDay : Rule := { month := 9, day := 1, offsets := [.weekday 0 1] }

/-- `CanadianThanksgiving`, `exchange_calendar_xtse.py` lines 73-78. -/
def canadianThanksgiving : Rule := { month := 10, day := 1, offsets := [.weekday 0 2] }

/-- `ChristmasEveEarlyClose2010Onwards`, `exchange_calendar_xtse.py` lines 80-86. -/
def christmasEveEarlyClose2010Onwards : Rule :=
  { month := 12, day := 24, startDate := some (dayOf 2010 1 1), daysOfWeek := some [0, 1, 2, 3,
    4] }

/-- `Christmas`, `exchange_calendar_xtse.py` line 88. -/
def christmas : Rule := TC.christmas

/-- `WeekendChristmas`, `exchange_calendar_xtse.py` line 90. -/
def weekendChristmas : Rule := TC.weekendChristmas

/-- `BoxingDay`, `exchange_calendar_xtse.py` line 92. -/
def boxingDay : Rule := TC.boxingDay

/-- `WeekendBoxingDay`, `exchange_calendar_xtse.py` line 94. -/
def weekendBoxingDay : Rule := TC.weekendBoxingDay

/-- `September11ClosingsCanada`, `exchange_calendar_xtse.py` line 96. -/
def september11ClosingsCanada : List Int := dayRange (dayOf 2001 9 11) (dayOf 2001 9 12)

/-- `regular_early_close`, `exchange_calendar_xtse.py` line 128. -/
def regularEarlyClose : Int := hm 13 0

/-- `tz`, `exchange_calendar_xtse.py` line 132. -/
def zone : Tz := Zones.americaToronto

/-- `open_times`, `exchange_calendar_xtse.py` lines 134-136. -/
def openTimes : TimeTable := [(none, hm 9 31)]

/-- `close_times`, `exchange_calendar_xtse.py` lines 138-140. -/
def closeTimes : TimeTable := [(none, hm 16 0)]

/-- `regular_holidays`, `exchange_calendar_xtse.py` lines 142-157. -/
def regular : List Rule :=
  [TC.Xtse.xtseNewYearsDay, TC.Xtse.familyDay, TC.goodFriday, TC.Xtse.victoriaDay,
   TC.Xtse.canadaDay, TC.Xtse.civicHoliday, TC.Xtse.laborDay, TC.Xtse.canadianThanksgiving,
   TC.Xtse.christmas, TC.Xtse.weekendChristmas, TC.Xtse.boxingDay, TC.Xtse.weekendBoxingDay]

/-- `adhoc_holidays`, `exchange_calendar_xtse.py` lines 159-164. -/
def adhoc : List Int := TC.Xtse.september11ClosingsCanada

/-- `special_closes`, `exchange_calendar_xtse.py` lines 166-172. -/
def specialCloses : List (Int × List Rule) :=
  [(regularEarlyClose, [TC.Xtse.christmasEveEarlyClose2010Onwards])]

/-- `XTSEExchangeCalendar`, `exchange_calendar_xtse.py` lines 99-172. -/
def exchange : Exchange :=
  { regular := TC.Xtse.regular
    adhoc := TC.Xtse.adhoc
    openTimes := TC.Xtse.openTimes
    closeTimes := TC.Xtse.closeTimes
    specialCloses := TC.Xtse.specialCloses }

end TC.Xtse
