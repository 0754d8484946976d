import Verif.Model.Exchange
import Verif.Model.Exchanges.XklsHolidays
import Verif.Model.Zones

/-! `/repo/trading_calendars/exchange_calendar_xkls.py`, translated by `tools/gen_exchanges.py`. -/

namespace TC.Xkls

/-- `tz`, `exchange_calendar_xkls.py` line 82. -/
def zone : Tz := Zones.asiaKualaLumpur

/-- `open_times`, `exchange_calendar_xkls.py` lines 84-86. -/
def openTimes : TimeTable := [(none, hm 9 1)]

/-- `close_times`, `exchange_calendar_xkls.py` lines 88-90. -/
def closeTimes : TimeTable := [(none, hm 17 0)]

/-- `regular_early_close`, `exchange_calendar_xkls.py` line 92. -/
def regularEarlyClose : Int := hm 12 30

/-- `regular_holidays`, `exchange_calendar_xkls.py` lines 94-103. -/
def regular : List Rule :=
  [TC.XklsHolidays.newYearsDay, TC.XklsHolidays.federalTerritoryDay, TC.XklsHolidays.labourDay,
   TC.XklsHolidays.nationalDay, TC.XklsHolidays.malaysiaDay, TC.XklsHolidays.christmasDay]

/-- `adhoc_holidays`, `exchange_calendar_xkls.py` lines 105-121. -/
def adhoc : List Int :=
  TC.XklsHolidays.miscAdhoc ++ TC.XklsHolidays.chineseNewYear ++
    TC.XklsHolidays.chineseNewYearDay2 ++ TC.XklsHolidays.nuzulAlQuran ++
    TC.XklsHolidays.eidAlFitrDay1 ++ TC.XklsHolidays.eidAlFitrDay2 ++
    TC.XklsHolidays.eidAlAdha ++ TC.XklsHolidays.muharram' ++
    TC.XklsHolidays.muhammadBirthday' ++ TC.XklsHolidays.deepavali' ++
    TC.XklsHolidays.thaipusam' ++ TC.XklsHolidays.wesakDay'

/-- `collisions` in `special_closes_adhoc`, `exchange_calendar_xkls.py` lines 128-137. -/
def collisions : List Int :=
  [dayOf 1997 2 7, dayOf 1998 1 28, dayOf 2002 2 11, dayOf 2003 1 31, dayOf 2004 1 21,
   dayOf 2003 11 24]

/-- `special_closes_adhoc`, `exchange_calendar_xkls.py` lines 123-143.  The days are a python set,
whose order is not specified; the model keeps the order of the lists the set is made of and their
duplicates, neither of which the calendar depends on. -/
def specialClosesAdhoc : List (Int × List Int) :=
  [(regularEarlyClose,
    (TC.XklsHolidays.chineseNewYearsHalfDay ++ TC.XklsHolidays.eidAlFitrHalfDay).filter fun d =>
      !(collisions.contains d))]

/-- `XKLSExchangeCalendar`, `exchange_calendar_xkls.py` lines 49-143. -/
def exchange : Exchange :=
  { regular := TC.Xkls.regular
    adhoc := TC.Xkls.adhoc
    openTimes := TC.Xkls.openTimes
    closeTimes := TC.Xkls.closeTimes
    specialClosesAdhoc := TC.Xkls.specialClosesAdhoc }

end TC.Xkls
