import Verif.Model.Exchange
import Verif.Model.Exchanges.LunisolarHolidays
import Verif.Model.Zones

/-! `/repo/trading_calendars/exchange_calendar_xtai.py`, translated by `tools/gen_exchanges.py`. -/

namespace TC.Xtai

/-- `before_chinese_new_year_offset`, `exchange_calendar_xtai.py` lines 48-57. -/
def beforeChineseNewYearOffset (holidays : List Int) : List Int :=
  holidays.map TC.previousFriday

/-- `chinese_new_year_offset`, `exchange_calendar_xtai.py` lines 60-69. -/
def chineseNewYearOffset (holidays : List Int) : List Int :=
  holidays.map TC.nextMonday

/-- `nearest_workday_after_2013`, `exchange_calendar_xtai.py` lines 72-76. -/
def nearestWorkdayAfter2013 (d : Int) : Int :=
  if yearOf d > 2013 then TC.nearestWorkday d else d

/-- `manual_nearest_workday`, `exchange_calendar_xtai.py` lines 79-88. -/
def manualNearestWorkday (holidays : List Int) : List Int :=
  holidays.map nearestWorkdayAfter2013

/-- `manual_extra_days`, `exchange_calendar_xtai.py` lines 91-106. -/
def manualExtraDays (holidays : List Int) : List Int :=
  let fridayExtras := (holidays.filter fun d => weekday d == 3 && decide (yearOf d > 2006)).map (· + 1)
  let mondayExtras := (holidays.filter fun d => weekday d == 1 && decide (yearOf d > 2006)).map (· - 1)
  fridayExtras ++ mondayExtras

/-- `NewYearsDay`, `exchange_calendar_xtai.py` line 135. -/
def newYearsDay : Rule := TC.newYearsDay (observance := some .taiwanMakeup)

/-- `PeaceMemorialDay`, `exchange_calendar_xtai.py` lines 137-142. -/
def peaceMemorialDay : Rule := { month := 2, day := 28, observance := some .taiwanMakeup }

/-- `WomenAndChildrensDay`, `exchange_calendar_xtai.py` lines 144-150. -/
def womenAndChildrensDay : Rule :=
  { month := 4, day := 4, observance := some .taiwanMakeup, startDate := some (dayOf 2011 1 1) }

/-- `LabourDay`, `exchange_calendar_xtai.py` line 152. -/
def labourDay : Rule := TC.europeanLabourDay (observance := some .sundayToMonday)

/-- `NationalDay`, `exchange_calendar_xtai.py` lines 154-159. -/
def nationalDay : Rule := { month := 10, day := 10, observance := some .taiwanMakeup }

/-- `chinese_new_year`, `exchange_calendar_xtai.py` line 161. -/
def chineseNewYear : List Int :=
  TC.Xtai.chineseNewYearOffset TC.LunisolarHolidays.chineseLunarNewYearDates

/-- `chinese_new_years_eve`, `exchange_calendar_xtai.py` lines 163-165. -/
def chineseNewYearsEve : List Int :=
  TC.Xtai.beforeChineseNewYearOffset (TC.Xtai.chineseNewYear.map (· - 1))

/-- `chinese_new_years_eve_2`, `exchange_calendar_xtai.py` lines 167-169. -/
def chineseNewYearsEve2 : List Int :=
  TC.Xtai.beforeChineseNewYearOffset (TC.Xtai.chineseNewYearsEve.map (· - 1))

/-- `chinese_new_year_2`, `exchange_calendar_xtai.py` lines 171-173. -/
def chineseNewYear2 : List Int := TC.Xtai.chineseNewYearOffset (TC.Xtai.chineseNewYear.map (· + 1))

/-- `chinese_new_year_3`, `exchange_calendar_xtai.py` lines 175-177. -/
def chineseNewYear3 : List Int := TC.Xtai.chineseNewYearOffset (TC.Xtai.chineseNewYear2.map (· + 1))

/-- `tomb_sweeping_day`, `exchange_calendar_xtai.py` line 179. -/
def tombSweepingDay : List Int :=
  TC.Xtai.manualNearestWorkday TC.LunisolarHolidays.qingmingFestivalDates

/-- `tomb_sweeping_day_extras`, `exchange_calendar_xtai.py` line 181. -/
def tombSweepingDayExtras : List Int := TC.Xtai.manualExtraDays TC.Xtai.tombSweepingDay

/-- `dragon_boat_festival`, `exchange_calendar_xtai.py` line 183. -/
def dragonBoatFestival : List Int :=
  TC.Xtai.manualNearestWorkday TC.LunisolarHolidays.dragonBoatFestivalDates

/-- `dragon_boat_festival_extras`, `exchange_calendar_xtai.py` line 185. -/
def dragonBoatFestivalExtras : List Int := TC.Xtai.manualExtraDays TC.Xtai.dragonBoatFestival

/-- `mid_autumn_festival`, `exchange_calendar_xtai.py` lines 187-189. -/
def midAutumnFestival : List Int :=
  TC.Xtai.manualNearestWorkday TC.LunisolarHolidays.midAutumnFestivalDates

/-- `mid_autumn_festival_extras`, `exchange_calendar_xtai.py` line 191. -/
def midAutumnFestivalExtras : List Int := TC.Xtai.manualExtraDays TC.Xtai.midAutumnFestival

/-- `chinese_new_year_extras`, `exchange_calendar_xtai.py` lines 195-224. -/
def chineseNewYearExtras : List Int :=
  [dayOf 2002 2 7, dayOf 2002 2 15, dayOf 2003 1 29, dayOf 2004 1 19, dayOf 2005 2 4,
   dayOf 2006 2 2, dayOf 2007 2 22, dayOf 2007 2 23, dayOf 2008 2 4, dayOf 2009 1 29,
   dayOf 2009 1 30, dayOf 2010 2 18, dayOf 2010 2 19, dayOf 2011 1 31, dayOf 2012 1 26,
   dayOf 2012 1 27, dayOf 2013 2 14, dayOf 2013 2 15, dayOf 2014 1 28, dayOf 2015 2 16,
   dayOf 2016 2 11, dayOf 2016 2 12, dayOf 2017 1 25, dayOf 2018 2 13, dayOf 2019 1 31,
   dayOf 2019 2 8, dayOf 2020 1 21, dayOf 2020 1 22]

/-- `extra_holidays`, `exchange_calendar_xtai.py` lines 227-235. -/
def extraHolidays : List Int :=
  [dayOf 2020 4 2, dayOf 2016 4 5, dayOf 2012 12 31, dayOf 2012 2 27, dayOf 2009 1 2,
   dayOf 2006 10 9, dayOf 2005 9 1]

/-- `typhoons`, `exchange_calendar_xtai.py` lines 237-258. -/
def typhoons : List Int :=
  [dayOf 2019 9 30, dayOf 2019 8 9, dayOf 2016 9 28, dayOf 2016 9 27, dayOf 2016 7 8,
   dayOf 2015 9 29, dayOf 2015 7 10, dayOf 2014 7 23, dayOf 2013 8 21, dayOf 2012 8 2,
   dayOf 2009 8 7, dayOf 2008 9 29, dayOf 2008 7 28, dayOf 2007 9 18, dayOf 2005 8 5,
   dayOf 2005 7 18, dayOf 2004 10 25, dayOf 2004 8 25, dayOf 2004 8 24, dayOf 2002 9 6]

/-- `tz`, `exchange_calendar_xtai.py` line 286. -/
def zone : Tz := Zones.asiaTaipei

/-- `open_times`, `exchange_calendar_xtai.py` lines 288-290. -/
def openTimes : TimeTable := [(none, hm 9 1)]

/-- `close_times`, `exchange_calendar_xtai.py` lines 292-294. -/
def closeTimes : TimeTable := [(none, hm 13 30)]

/-- `regular_holidays`, `exchange_calendar_xtai.py` lines 296-304. -/
def regular : List Rule :=
  [TC.Xtai.newYearsDay, TC.Xtai.peaceMemorialDay, TC.Xtai.womenAndChildrensDay, TC.Xtai.labourDay,
   TC.Xtai.nationalDay]

/-- `adhoc_holidays`, `exchange_calendar_xtai.py` lines 306-323. -/
def adhoc : List Int :=
  TC.Xtai.extraHolidays ++ TC.Xtai.typhoons ++ TC.Xtai.chineseNewYearsEve ++
    TC.Xtai.chineseNewYearsEve2 ++ TC.Xtai.chineseNewYear ++ TC.Xtai.chineseNewYear2 ++
    TC.Xtai.chineseNewYear3 ++ TC.Xtai.chineseNewYearExtras ++ TC.Xtai.tombSweepingDay ++
    TC.Xtai.tombSweepingDayExtras ++ TC.Xtai.dragonBoatFestival ++
    TC.Xtai.dragonBoatFestivalExtras ++ TC.Xtai.midAutumnFestival ++
    TC.Xtai.midAutumnFestivalExtras

/-- `XTAIExchangeCalendar`, `exchange_calendar_xtai.py` lines 261-323. -/
def exchange : Exchange :=
  { regular := TC.Xtai.regular
    adhoc := TC.Xtai.adhoc
    openTimes := TC.Xtai.openTimes
    closeTimes := TC.Xtai.closeTimes }

end TC.Xtai
