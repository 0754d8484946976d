import Verif.Model.Exchange
import Verif.Model.Exchanges.XtksHolidays
import Verif.Model.Zones

/-! `/repo/trading_calendars/exchange_calendar_xtks.py`, translated by `tools/gen_exchanges.py`. -/

namespace TC.Xtks

/-- `XTKS_START_DEFAULT`, `exchange_calendar_xtks.py` line 52. -/
def xtksStartDefault : Int := dayOf 2000 1 1

/-- `tz`, `exchange_calendar_xtks.py` line 92. -/
def zone : Tz := Zones.asiaTokyo

/-- `open_times`, `exchange_calendar_xtks.py` lines 94-96. -/
def openTimes : TimeTable := [(none, hm 9 1)]

/-- `close_times`, `exchange_calendar_xtks.py` lines 98-100. -/
def closeTimes : TimeTable := [(none, hm 15 0)]

/-- `regular_holidays`, `exchange_calendar_xtks.py` lines 102-137. -/
def regular : List Rule :=
  [TC.XtksHolidays.newYearsHolidayDec31, TC.XtksHolidays.newYearsHolidayJan1,
   TC.XtksHolidays.newYearsHolidayJan2, TC.XtksHolidays.newYearsHolidayJan3,
   TC.XtksHolidays.comingOfAgeDay, TC.XtksHolidays.nationalFoundationDay,
   TC.XtksHolidays.greeneryDayThrough2006, TC.XtksHolidays.showaDay,
   TC.XtksHolidays.constitutionMemorialDayThrough2006,
   TC.XtksHolidays.constitutionMemorialDay2007Onwards, TC.XtksHolidays.greeneryDay2007Onwards,
   TC.XtksHolidays.citizensHolidayGoldenWeek, TC.XtksHolidays.childrensDay,
   TC.XtksHolidays.marineDayThrough2002, TC.XtksHolidays.marineDay2003OnwardsThrough2019,
   TC.XtksHolidays.marineDay2020, TC.XtksHolidays.marineDay2021,
   TC.XtksHolidays.marineDay2022Onwards, TC.XtksHolidays.mountainDayThrough2019,
   TC.XtksHolidays.mountainDay2020, TC.XtksHolidays.mountainDay2021,
   TC.XtksHolidays.mountainDay2022Onwards, TC.XtksHolidays.respectForTheAgedDayThrough2002,
   TC.XtksHolidays.respectForTheAgedDay2003Onwards, TC.XtksHolidays.healthAndSportsDayThrough2019,
   TC.XtksHolidays.healthAndSportsDay2020, TC.XtksHolidays.healthAndSportsDay2021,
   TC.XtksHolidays.healthAndSportsDay2022Onwards, TC.XtksHolidays.cultureDay,
   TC.XtksHolidays.laborThanksgivingDay, TC.XtksHolidays.emperorAkihitoBirthday,
   TC.XtksHolidays.emperorNaruhitoBirthday]

/-- `adhoc_holidays`, `exchange_calendar_xtks.py` lines 139-146. -/
def adhoc : List Int :=
  TC.XtksHolidays.vernalEquinoxes ++ TC.XtksHolidays.autumnalEquinoxes ++
    TC.XtksHolidays.citizensHolidaySilverWeek ++ TC.XtksHolidays.misc2019Holidays

/-- `XTKSExchangeCalendar`, `exchange_calendar_xtks.py` lines 55-146. -/
def exchange : Exchange :=
  { regular := TC.Xtks.regular
    adhoc := TC.Xtks.adhoc
    openTimes := TC.Xtks.openTimes
    closeTimes := TC.Xtks.closeTimes }

end TC.Xtks
