import Verif.Model.Exchange
import Verif.Model.Zones

/-! `/repo/trading_calendars/exchange_calendar_xlon.py`, translated by `tools/gen_exchanges.py`. -/

namespace TC.Xlon

/-- `LSENewYearsDay`, `exchange_calendar_xlon.py` line 44. -/
def lseNewYearsDay : Rule := TC.newYearsDay (observance := some .weekendToMonday)

/-- `MayBank_pre_1995`, `exchange_calendar_xlon.py` lines 52-58. -/
def mayBankPre1995 : Rule :=
  { month := 5, day := 1, offsets := [.weekday 0 1], endDate := some (dayOf 1994 12 31) }

/-- `MayBank_post_1995_pre_2020`, `exchange_calendar_xlon.py` lines 61-68. -/
def mayBankPost1995Pre2020 : Rule :=
  { month := 5, day := 1, offsets := [.weekday 0 1], startDate := some (dayOf 1996 1 1),
    endDate := some (dayOf 2019 12 31) }

/-- `MayBank_post_2020`, `exchange_calendar_xlon.py` lines 71-77. -/
def mayBankPost2020 : Rule :=
  { month := 5, day := 1, offsets := [.weekday 0 1], startDate := some (dayOf 2021 1 1) }

/-- `SpringBank_pre_2002`, `exchange_calendar_xlon.py` lines 85-91. -/
def springBankPre2002 : Rule :=
  { month := 5, day := 31, offsets := [.weekday 0 (-1)], endDate := some (dayOf 2001 12 31) }

/-- `SpringBank_post_2002_pre_2012`, `exchange_calendar_xlon.py` lines 93-100. -/
def springBankPost2002Pre2012 : Rule :=
  { month := 5, day := 31, offsets := [.weekday 0 (-1)], startDate := some (dayOf 2003 1 1),
    endDate := some (dayOf 2011 12 31) }

/-- `SpringBank_post_2012`, `exchange_calendar_xlon.py` lines 102-108. -/
def springBankPost2012 : Rule :=
  { month := 5, day := 31, offsets := [.weekday 0 (-1)], startDate := some (dayOf 2013 1 1) }

/-- `SummerBank`, `exchange_calendar_xlon.py` lines 111-116. -/
def summerBank : Rule := { month := 8, day := 31, offsets := [.weekday 0 (-1)] }

/-- `Christmas`, `exchange_calendar_xlon.py` line 118. -/
def christmas : Rule := TC.christmas

/-- `WeekendChristmas`, `exchange_calendar_xlon.py` line 120. -/
def weekendChristmas : Rule := TC.weekendChristmas

/-- `BoxingDay`, `exchange_calendar_xlon.py` line 122. -/
def boxingDay : Rule := TC.boxingDay

/-- `WeekendBoxingDay`, `exchange_calendar_xlon.py` line 124. -/
def weekendBoxingDay : Rule := TC.weekendBoxingDay

/-- `ChristmasEve`, `exchange_calendar_xlon.py` lines 130-135. -/
def christmasEve : Rule := { month := 12, day := 24, observance := some .previousFriday }

/-- `NewYearsEvePre1999`, `exchange_calendar_xlon.py` lines 139-145. -/
def newYearsEvePre1999 : Rule :=
  { month := 12, day := 31, observance := some .previousFriday, endDate := some (dayOf 1999 1 1) }

/-- `NewYearsEvePost2000`, `exchange_calendar_xlon.py` lines 146-152. -/
def newYearsEvePost2000 : Rule :=
  { month := 12, day := 31, observance := some .previousFriday,
    startDate := some (dayOf 2000 1 1) }

/-- `regular_early_close`, `exchange_calendar_xlon.py` line 178. -/
def regularEarlyClose : Int := hm 12 30

/-- `tz`, `exchange_calendar_xlon.py` line 182. -/
def zone : Tz := Zones.europeLondon

/-- `open_times`, `exchange_calendar_xlon.py` lines 184-186. -/
def openTimes : TimeTable := [(none, hm 8 1)]

/-- `close_times`, `exchange_calendar_xlon.py` lines 188-190. -/
def closeTimes : TimeTable := [(none, hm 16 30)]

/-- `regular_holidays`, `exchange_calendar_xlon.py` lines 192-209. -/
def regular : List Rule :=
  [TC.Xlon.lseNewYearsDay, TC.goodFriday, TC.easterMonday, TC.Xlon.mayBankPre1995,
   TC.Xlon.mayBankPost1995Pre2020, TC.Xlon.mayBankPost2020, TC.Xlon.springBankPre2002,
   TC.Xlon.springBankPost2002Pre2012, TC.Xlon.springBankPost2012, TC.Xlon.summerBank,
   TC.Xlon.christmas, TC.Xlon.weekendChristmas, TC.Xlon.boxingDay, TC.Xlon.weekendBoxingDay]

/-- `adhoc_holidays`, `exchange_calendar_xlon.py` lines 211-236. -/
def adhoc : List Int :=
  [dayOf 1995 5 8, dayOf 2020 5 8, dayOf 1977 6 7, dayOf 2002 6 3, dayOf 2002 6 4, dayOf 2012 6 4,
   dayOf 2012 6 5, dayOf 1973 11 14, dayOf 1981 7 29, dayOf 2011 4 29, dayOf 1999 12 31]

/-- `special_closes`, `exchange_calendar_xlon.py` lines 238-246. -/
def specialCloses : List (Int × List Rule) :=
  [(regularEarlyClose, [TC.Xlon.christmasEve, TC.Xlon.newYearsEvePre1999,
    TC.Xlon.newYearsEvePost2000])]

/-- `XLONExchangeCalendar`, `exchange_calendar_xlon.py` lines 155-246. -/
def exchange : Exchange :=
  { regular := TC.Xlon.regular
    adhoc := TC.Xlon.adhoc
    openTimes := TC.Xlon.openTimes
    closeTimes := TC.Xlon.closeTimes
    specialCloses := TC.Xlon.specialCloses }

end TC.Xlon
