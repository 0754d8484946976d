import Verif.Model.Exchange
import Verif.Model.Zones

/-! `/repo/trading_calendars/exchange_calendar_xjse.py`, translated by `tools/gen_exchanges.py`. -/

namespace TC.Xjse

/-- `tz`, `exchange_calendar_xjse.py` line 61. -/
def zone : Tz := Zones.africaJohannesburg

/-- `open_times`, `exchange_calendar_xjse.py` lines 63-65. -/
def openTimes : TimeTable := [(none, hm 9 1)]

/-- `close_times`, `exchange_calendar_xjse.py` lines 67-69. -/
def closeTimes : TimeTable := [(none, hm 17 0)]

/-- `regular_holidays`, `exchange_calendar_xjse.py` lines 71-138. -/
def regular : List Rule :=
  [TC.newYearsDay (observance := some .sundayToMonday),
   { month := 3, day := 21, observance := some .sundayToMonday }, TC.goodFriday,
   { month := 1, day := 1, offsets := [.easter, .days 1] },
   { month := 4, day := 27, observance := some .sundayToMonday },
   { month := 5, day := 1, observance := some .sundayToMonday },
   { month := 6, day := 16, observance := some .sundayToMonday },
   { month := 8, day := 9, observance := some .sundayToMonday },
   { month := 9, day := 24, observance := some .sundayToMonday },
   { month := 12, day := 16, observance := some .sundayToMonday },
   { month := 12, day := 25, observance := some .sundayToMonday },
   { month := 12, day := 26, observance := some .sundayToMonday }]

/-- `adhoc_holidays`, `exchange_calendar_xjse.py` lines 140-163. -/
def adhoc : List Int :=
  [dayOf 2004 4 14, dayOf 2006 3 1, dayOf 2009 4 22, dayOf 2011 5 18, dayOf 2014 5 7,
    dayOf 2016 8 3, dayOf 2019 5 8, dayOf 2008 5 2, dayOf 2011 12 27, dayOf 2016 12 27]

/-- `XJSEExchangeCalendar`, `exchange_calendar_xjse.py` lines 31-163. -/
def exchange : Exchange :=
  { regular := TC.Xjse.regular
    adhoc := TC.Xjse.adhoc
    openTimes := TC.Xjse.openTimes
    closeTimes := TC.Xjse.closeTimes }

end TC.Xjse
