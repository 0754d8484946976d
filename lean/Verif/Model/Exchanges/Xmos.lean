import Verif.Model.Exchange
import Verif.Model.Zones

/-! `/repo/trading_calendars/exchange_calendar_xmos.py`, translated by `tools/gen_exchanges.py`. -/

namespace TC.Xmos

/-- `NewYearsDay`, `exchange_calendar_xmos.py` line 66. -/
def newYearsDay : Rule := TC.newYearsDay (observance := some .weekendToMonday)

/-- `NewYearsHoliday`, `exchange_calendar_xmos.py` lines 67-72. -/
def newYearsHoliday : Rule :=
  { month := 1, day := 2, observance := some (.weekendToMondayExcept [2016]) }

/-- `NewYearsHoliday2`, `exchange_calendar_xmos.py` lines 73-79. -/
def newYearsHoliday2 : Rule :=
  { month := 1, day := 3, startDate := some (dayOf 2005 1 1), endDate := some (dayOf 2012 1 1) }

/-- `NewYearsHoliday3`, `exchange_calendar_xmos.py` lines 80-86. -/
def newYearsHoliday3 : Rule :=
  { month := 1, day := 4, startDate := some (dayOf 2005 1 1), endDate := some (dayOf 2012 1 1) }

/-- `NewYearsHoliday4`, `exchange_calendar_xmos.py` lines 87-93. -/
def newYearsHoliday4 : Rule :=
  { month := 1, day := 5, startDate := some (dayOf 2005 1 1), endDate := some (dayOf 2012 1 1) }

/-- `NewYearsHoliday5`, `exchange_calendar_xmos.py` lines 94-100. -/
def newYearsHoliday5 : Rule :=
  { month := 1, day := 6, startDate := some (dayOf 2005 1 1), endDate := some (dayOf 2012 1 1) }

/-- `OrthodoxChristmas`, `exchange_calendar_xmos.py` lines 102-107. -/
def orthodoxChristmas : Rule :=
  { month := 1, day := 7, observance := some (.weekendToMondayExcept [2012, 2017]) }

/-- `DefenderOfTheFatherlandDay`, `exchange_calendar_xmos.py` lines 109-114. -/
def defenderOfTheFatherlandDay : Rule :=
  { month := 2, day := 23, observance := some (.weekendToMondayExcept [2013, 2014, 2019]) }

/-- `WomensDay`, `exchange_calendar_xmos.py` lines 116-121. -/
def womensDay : Rule := { month := 3, day := 8, observance := some .weekendToMonday }

/-- `LabourDay`, `exchange_calendar_xmos.py` line 123. -/
def labourDay : Rule := TC.europeanLabourDay (observance := some .weekendToMonday)

/-- `VictoryDay`, `exchange_calendar_xmos.py` lines 125-130. -/
def victoryDay : Rule := { month := 5, day := 9, observance := some .weekendToMonday }

/-- `DayOfRussia`, `exchange_calendar_xmos.py` lines 132-137. -/
def dayOfRussia : Rule := { month := 6, day := 12, observance := some .weekendToMonday }

/-- `UnityDay`, `exchange_calendar_xmos.py` lines 139-145. -/
def unityDay : Rule :=
  { month := 11, day := 4, observance := some .weekendToMonday,
    startDate := some (dayOf 2005 1 1) }

/-- `NewYearsEve`, `exchange_calendar_xmos.py` lines 147-150. -/
def newYearsEve : Rule :=
  TC.newYearsEve (observance := some (.weekendToMondayExcept [2008,
    2009])) (daysOfWeek := some [0, 1, 2, 3, 4])

/-- `new_years_extensions`, `exchange_calendar_xmos.py` lines 161-166. -/
def newYearsExtensions : List Int :=
  [dayOf 2003 1 3, dayOf 2013 1 3, dayOf 2013 1 4, dayOf 2014 1 3]

/-- `orthodox_christmas_extensions`, `exchange_calendar_xmos.py` lines 168-177. -/
def orthodoxChristmasExtensions : List Int :=
  [dayOf 2003 1 6, dayOf 2005 1 10, dayOf 2008 1 8, dayOf 2009 1 8, dayOf 2009 1 9, dayOf 2010 1 8,
   dayOf 2011 1 10, dayOf 2016 1 8]

/-- `defender_of_the_fatherland_extensions`, `exchange_calendar_xmos.py` lines 179-182. -/
def defenderOfTheFatherlandExtensions : List Int := [dayOf 2006 2 24, dayOf 2010 2 22]

/-- `womens_day_extensions`, `exchange_calendar_xmos.py` lines 184-188. -/
def womensDayExtensions : List Int := [dayOf 2005 3 7, dayOf 2011 3 7, dayOf 2012 3 9]

/-- `labour_day_extensions`, `exchange_calendar_xmos.py` lines 190-200. -/
def labourDayExtensions : List Int :=
  [dayOf 2002 5 2, dayOf 2002 5 3, dayOf 2003 5 2, dayOf 2004 5 4, dayOf 2007 4 30, dayOf 2008 5 2,
   dayOf 2012 4 30, dayOf 2015 5 4, dayOf 2016 5 3]

/-- `victory_day_extensions`, `exchange_calendar_xmos.py` lines 202-207. -/
def victoryDayExtensions : List Int :=
  [dayOf 2002 5 10, dayOf 2005 5 10, dayOf 2006 5 8, dayOf 2017 5 8]

/-- `day_of_russia_extensions`, `exchange_calendar_xmos.py` lines 209-215. -/
def dayOfRussiaExtensions : List Int :=
  [dayOf 2003 6 13, dayOf 2007 6 11, dayOf 2008 6 13, dayOf 2012 6 11, dayOf 2014 6 13]

/-- `unity_day_extensions`, `exchange_calendar_xmos.py` lines 217-220. -/
def unityDayExtensions : List Int := [dayOf 2008 11 3, dayOf 2010 11 5]

/-- `misc_adhoc`, `exchange_calendar_xmos.py` lines 222-236. -/
def miscAdhoc : List Int :=
  [dayOf 2002 11 7, dayOf 2002 11 8, dayOf 2002 12 12, dayOf 2002 12 13, dayOf 2003 11 7,
   dayOf 2003 12 12, dayOf 2004 11 8, dayOf 2004 12 13, dayOf 2008 9 18, dayOf 2008 10 10,
   dayOf 2008 10 27]

/-- `tz`, `exchange_calendar_xmos.py` line 266. -/
def zone : Tz := Zones.europeMoscow

/-- `open_times`, `exchange_calendar_xmos.py` lines 268-270. -/
def openTimes : TimeTable := [(none, hm 10 1)]

/-- `close_times`, `exchange_calendar_xmos.py` lines 272-274. -/
def closeTimes : TimeTable := [(none, hm 18 45)]

/-- `regular_holidays`, `exchange_calendar_xmos.py` lines 276-293. -/
def regular : List Rule :=
  [TC.Xmos.newYearsDay, TC.Xmos.newYearsHoliday, TC.Xmos.newYearsHoliday2, TC.Xmos.newYearsHoliday3,
   TC.Xmos.newYearsHoliday4, TC.Xmos.newYearsHoliday5, TC.Xmos.orthodoxChristmas,
   TC.Xmos.defenderOfTheFatherlandDay, TC.Xmos.womensDay, TC.Xmos.labourDay, TC.Xmos.victoryDay,
   TC.Xmos.dayOfRussia, TC.Xmos.unityDay, TC.Xmos.newYearsEve]

/-- `adhoc_holidays`, `exchange_calendar_xmos.py` lines 295-309. -/
def adhoc : List Int :=
  TC.Xmos.newYearsExtensions ++ TC.Xmos.orthodoxChristmasExtensions ++
    TC.Xmos.defenderOfTheFatherlandExtensions ++ TC.Xmos.womensDayExtensions ++
    TC.Xmos.labourDayExtensions ++ TC.Xmos.victoryDayExtensions ++
    TC.Xmos.dayOfRussiaExtensions ++ TC.Xmos.unityDayExtensions ++ TC.Xmos.miscAdhoc

/-- `XMOSExchangeCalendar`, `exchange_calendar_xmos.py` lines 239-309. -/
def exchange : Exchange :=
  { regular := TC.Xmos.regular
    adhoc := TC.Xmos.adhoc
    openTimes := TC.Xmos.openTimes
    closeTimes := TC.Xmos.closeTimes }

end TC.Xmos
