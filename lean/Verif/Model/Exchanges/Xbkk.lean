import Verif.Model.Exchange
import Verif.Model.Exchanges.XbkkHolidays
import Verif.Model.Zones

/-! `/repo/trading_calendars/exchange_calendar_xbkk.py`, translated by `tools/gen_exchanges.py`. -/

namespace TC.Xbkk

/-- `tz`, `exchange_calendar_xbkk.py` line 82. -/
def zone : Tz := Zones.asiaBangkok

/-- `open_times`, `exchange_calendar_xbkk.py` lines 84-86. -/
def openTimes : TimeTable := [(none, hm 10 1)]

/-- `close_times`, `exchange_calendar_xbkk.py` lines 88-90. -/
def closeTimes : TimeTable := [(none, hm 16 30)]

/-- `regular_holidays`, `exchange_calendar_xbkk.py` lines 92-112. -/
def regular : List Rule :=
  [TC.XbkkHolidays.newYearsDay, TC.XbkkHolidays.chakriMemorialDay,
   TC.XbkkHolidays.songkranFestival1, TC.XbkkHolidays.songkranFestival2,
   TC.XbkkHolidays.songkranFestival3, TC.XbkkHolidays.labourDay,
   TC.XbkkHolidays.coronationDay2016AndBefore, TC.XbkkHolidays.coronationDay2019AndAfter,
   TC.XbkkHolidays.hmQueensBirthday, TC.XbkkHolidays.hmKingsBirthday,
   TC.XbkkHolidays.hmQueenMothersBirthday, TC.XbkkHolidays.halfYearHoliday,
   TC.XbkkHolidays.thePassingOfKingBhumibol, TC.XbkkHolidays.chulalongkornDay,
   TC.XbkkHolidays.kingBhumibolsBirthday, TC.XbkkHolidays.thailandConstitutionDay,
   TC.XbkkHolidays.newYearsEve]

/-- `adhoc_holidays`, `exchange_calendar_xbkk.py` lines 114-128. -/
def adhoc : List Int :=
  TC.XbkkHolidays.makhaBucha ++ TC.XbkkHolidays.vesak ++ TC.XbkkHolidays.asanhaBucha ++
    TC.XbkkHolidays.newYearsBridgeDays ++ TC.XbkkHolidays.asanhaBuchaBridgeDays ++
    TC.XbkkHolidays.queensBirthdayBridgeDays ++ TC.XbkkHolidays.coronationBridgeDays ++
    TC.XbkkHolidays.vesakBridgeDays ++ TC.XbkkHolidays.miscAdhoc

/-- `XBKKExchangeCalendar`, `exchange_calendar_xbkk.py` lines 52-128. -/
def exchange : Exchange :=
  { regular := TC.Xbkk.regular
    adhoc := TC.Xbkk.adhoc
    openTimes := TC.Xbkk.openTimes
    closeTimes := TC.Xbkk.closeTimes }

end TC.Xbkk
