import Verif.Model.Exchange
import Verif.Model.Exchanges.LunisolarHolidays
import Verif.Model.Zones

/-! `/repo/trading_calendars/exchange_calendar_xhkg.py`, translated by `tools/gen_exchanges.py`. -/

namespace TC.Xhkg

/-- `weekdays`, `exchange_calendar_xhkg.py` line 70. -/
def weekdays : List Int := [0, 1, 2, 3, 4]

/-- `LabourDay`, `exchange_calendar_xhkg.py` lines 88-94. -/
def labourDay : Rule :=
  { month := 5, day := 1, observance := some .sundayToMonday, startDate := some (dayOf 1999 5 1) }

/-- `HKRegionEstablishmentDay`, `exchange_calendar_xhkg.py` lines 96-102. -/
def hkRegionEstablishmentDay : Rule :=
  { month := 7, day := 1, observance := some .sundayToMonday, startDate := some (dayOf 1997 7 1) }

/-- `NationalDay`, `exchange_calendar_xhkg.py` lines 104-110. -/
def nationalDay : Rule :=
  { month := 10, day := 1, observance := some .sundayToMonday,
    startDate := some (dayOf 1997 7 1) }

/-- `QueenBirthday`, `exchange_calendar_xhkg.py` lines 112-119. -/
def queenBirthday : Rule :=
  { month := 6, day := 10, observance := some .processQueenBirthday,
    startDate := some (dayOf 1983 1 1), endDate := some (dayOf 1997 6 1) }

/-- `QueenBirthday2`, `exchange_calendar_xhkg.py` lines 121-128. -/
def queenBirthday2 : Rule :=
  { month := 4, day := 21, observance := some .processQueenBirthday,
    startDate := some (dayOf 1926 4 21), endDate := some (dayOf 1983 1 1) }

/-- `CommemoratingAlliedVictory`, `exchange_calendar_xhkg.py` lines 130-137. -/
def commemoratingAlliedVictory : Rule :=
  { month := 8, day := 20, offsets := [.lastWeekOfMonth 0], startDate := some (dayOf 1945 8 30),
    endDate := some (dayOf 1997 7 1) }

/-- `IDontKnow`, `exchange_calendar_xhkg.py` lines 139-146. -/
def iDontKnow : Rule :=
  { month := 7, day := 31, offsets := [.weekOfMonth 0 0], startDate := some (dayOf 1960 8 1),
    endDate := some (dayOf 1983 1 1) }

/-- `day_after_mid_autumn_festival_dates`, `exchange_calendar_xhkg.py` line 149. -/
def dayAfterMidAutumnFestivalDates : List Int :=
  TC.LunisolarHolidays.midAutumnFestivalDates.map (· + 1)

/-- `HKAdhocClosures`, `exchange_calendar_xhkg.py` lines 151-235. -/
def hkAdhocClosures : List Int :=
  [dayOf 1970 7 1, dayOf 1971 7 1, dayOf 1973 7 2, dayOf 1974 7 1, dayOf 1975 7 1, dayOf 1976 7 1,
   dayOf 1977 7 1, dayOf 1979 7 2, dayOf 1980 7 1, dayOf 1981 7 1, dayOf 1982 7 1, dayOf 1971 3 22,
   dayOf 1971 12 6, dayOf 1971 12 20, dayOf 1975 7 28, dayOf 1985 7 29, dayOf 1970 7 16,
   dayOf 1970 9 14, dayOf 1971 7 22, dayOf 1971 8 31, dayOf 1973 4 16, dayOf 1973 7 17,
   dayOf 1974 4 25, dayOf 1975 10 14, dayOf 1978 7 26, dayOf 1978 7 27, dayOf 1979 1 26,
   dayOf 1979 8 2, dayOf 1980 5 21, dayOf 1980 7 22, dayOf 1981 4 27, dayOf 1981 7 6,
   dayOf 1981 7 7, dayOf 1981 7 29, dayOf 1983 9 9, dayOf 1985 6 24, dayOf 1986 4 1,
   dayOf 1986 10 22, dayOf 1987 10 20, dayOf 1987 10 21, dayOf 1987 10 22, dayOf 1987 10 23,
   dayOf 1988 4 5, dayOf 1991 6 18, dayOf 1992 7 22, dayOf 1993 9 17, dayOf 1994 6 14,
   dayOf 1997 6 30, dayOf 1997 7 2, dayOf 1997 8 18, dayOf 1997 10 2, dayOf 1998 8 17,
   dayOf 1998 10 2, dayOf 1999 4 6, dayOf 1999 9 16, dayOf 1999 12 31, dayOf 2001 7 6,
   dayOf 2001 7 25, dayOf 2008 8 6, dayOf 2008 8 22, dayOf 2010 4 6, dayOf 2011 9 29,
   dayOf 2012 10 2, dayOf 2013 8 14, dayOf 2015 4 7, dayOf 2015 9 3, dayOf 2016 8 2,
   dayOf 2016 10 21, dayOf 2017 8 23]

/-- `tz`, `exchange_calendar_xhkg.py` line 277. -/
def zone : Tz := Zones.asiaHongKong

/-- `open_times`, `exchange_calendar_xhkg.py` lines 279-282. -/
def openTimes : TimeTable := [(none, hm 10 1), (some ((dayOf 2011 3 7) * DAY), hm 9 31)]

/-- `break_start_times`, `exchange_calendar_xhkg.py` lines 283-285. -/
def breakStartTimes : TimeTable := [(none, hm 12 1)]

/-- `break_end_times`, `exchange_calendar_xhkg.py` lines 286-288. -/
def breakEndTimes : TimeTable := [(none, hm 13 0)]

/-- `close_times`, `exchange_calendar_xhkg.py` lines 289-291. -/
def closeTimes : TimeTable := [(none, hm 16 0)]

/-- `regular_holidays`, `exchange_calendar_xhkg.py` lines 328-344. -/
def regular : List Rule :=
  [TC.newYearsDay (observance := some .sundayToMonday), TC.goodFriday, TC.easterMonday,
   TC.Xhkg.labourDay, TC.Xhkg.hkRegionEstablishmentDay, TC.Xhkg.commemoratingAlliedVictory,
   TC.Xhkg.iDontKnow, TC.Xhkg.nationalDay, TC.Xhkg.queenBirthday, TC.Xhkg.queenBirthday2,
   TC.christmas, TC.weekendChristmas, TC.boxingDay (observance := some .boxingDayObs)]

/-- `lunar_new_years_eve` in `adhoc_holidays`, `exchange_calendar_xhkg.py` lines 348-353. -/
def lunarNewYearsEve : List Int :=
  (TC.LunisolarHolidays.chineseLunarNewYearDates.filter fun d =>
    weekday d == 5 && decide (yearOf d < 2013)).map (· - 1)

/-- `lunar_new_year_2`, `exchange_calendar_xhkg.py` line 355. -/
def lunarNewYear2 : List Int := TC.LunisolarHolidays.chineseLunarNewYearDates.map (· + 1)

/-- `lunar_new_year_3`, `exchange_calendar_xhkg.py` line 356. -/
def lunarNewYear3 : List Int := TC.LunisolarHolidays.chineseLunarNewYearDates.map (· + 2)

/-- `lunar_new_year_4`, `exchange_calendar_xhkg.py` lines 357-372. -/
def lunarNewYear4 : List Int :=
  (TC.LunisolarHolidays.chineseLunarNewYearDates.filter fun d =>
    (weekday d == 6 || weekday (d + 1) == 6 || weekday (d + 2) == 6) &&
      decide (yearOf d ≥ 2013)).map (· + 3)

/-- `years` and `easter_monday`, `exchange_calendar_xhkg.py` lines 377-378: `EasterMonday.dates` from the first day
of the first
year to the first day of the year after the last one. -/
def easterMondays (qingming : List Int) : List Int :=
  let y0 := yearOf (qingming.headD 0)
  let y1 := yearOf (qingming.getLastD 0) + 1
  (TC.easterMonday.dates (dayOf y0 1 1 * DAY) (dayOf y1 1 1 * DAY)).map (· / DAY)

/-- `qingming_festival`, `exchange_calendar_xhkg.py` lines 374-383: Sundays move to Monday, then a date equal to the
Easter Monday at
its position moves on by a day. -/
def qingmingFestival : List Int :=
  let q := TC.LunisolarHolidays.qingmingFestivalDates.map TC.sundayToMonday
  List.zipWith (fun d e => if d == e then d + 1 else d) q (easterMondays q)

/-- `mid_autumn_festival`, `exchange_calendar_xhkg.py` lines 389-393.  The assignment works on the array shared with
the table
`day_after_mid_autumn_festival_dates`, so the table changes with the first access; later accesses
find no October 1 any more and leave it alone. -/
def midAutumnFestival : List Int :=
  dayAfterMidAutumnFestivalDates.map fun d =>
    if monthOf d == 10 && dayOfMonth d == 1 then d + 1 else d

/-- `adhoc_holidays`, `exchange_calendar_xhkg.py` lines 346-408. -/
def adhoc : List Int :=
  lunarNewYearsEve ++ TC.LunisolarHolidays.chineseLunarNewYearDates ++ lunarNewYear2 ++
    lunarNewYear3 ++ lunarNewYear4 ++ qingmingFestival ++
    TC.LunisolarHolidays.chineseBuddhasBirthdayDates.map TC.sundayToMonday ++
    TC.LunisolarHolidays.dragonBoatFestivalDates.map TC.sundayToMonday ++ midAutumnFestival ++
    TC.LunisolarHolidays.doubleNinthFestivalDates.map TC.sundayToMonday ++ hkAdhocClosures

/-- `special_closes`, `exchange_calendar_xhkg.py` lines 410-442. -/
def specialCloses : List (Int × List Rule) := [(hm 12 30,
     [TC.newYearsEve (endDate := some (dayOf 1999 12 1)) (daysOfWeek := some TC.Xhkg.weekdays),
      TC.newYearsEve (startDate := some (dayOf 2000 12 1)) (endDate := some (dayOf 2011 3 7)) (daysOfWeek := some TC.Xhkg.weekdays),
      TC.christmasEve (endDate := some (dayOf 2011 3 7)) (daysOfWeek := some TC.Xhkg.weekdays)]),
   (hm 12 0,
     [TC.newYearsEve (startDate := some (dayOf 2011 3 7)) (daysOfWeek := some TC.Xhkg.weekdays),
      TC.christmasEve (startDate := some (dayOf 2011 3 7)) (daysOfWeek := some TC.Xhkg.weekdays)])]

/-- `regular_early_close_times`, `exchange_calendar_xhkg.py` lines 292-295. -/
def regularEarlyCloseTimes : List (Option Int × Int) :=
  [(none, hm 12 30), (some (dayOf 2011 3 7), hm 12 0)]

/-- `lunar_new_years_eve` in `special_closes_adhoc`, `exchange_calendar_xhkg.py` lines 446-453. -/
def lunarNewYearsEveEarly : List Int :=
  (TC.LunisolarHolidays.chineseLunarNewYearDates.filter fun d =>
    [1, 2, 3, 4, 5].contains (weekday d) && decide (yearOf d ≥ 2013)).map (· - 1)

/-- `selection(arr, start, end)`, `exchange_calendar_xhkg.py` lines 455-465. -/
def selection (arr : List Int) (start stop : Option Int) : List Int :=
  arr.filter fun d =>
    (match start with | none => true | some s => decide (s ≤ d)) &&
    (match stop with | none => true | some e => decide (d < e))

/-- `special_closes_adhoc`, `exchange_calendar_xhkg.py` lines 444-473: consecutive entries of the
table, the last one with `(None, None)`. -/
def specialClosesAdhoc : List (Int × List Int) :=
  List.zipWith (fun a b => (a.2, selection lunarNewYearsEveEarly a.1 b)) regularEarlyCloseTimes
    (regularEarlyCloseTimes.tail.map (·.1) ++ [none])

/-- `XHKGExchangeCalendar`, `exchange_calendar_xhkg.py` lines 244-473. -/
def exchange : Exchange :=
  { regular := TC.Xhkg.regular
    adhoc := TC.Xhkg.adhoc
    openTimes := TC.Xhkg.openTimes
    closeTimes := TC.Xhkg.closeTimes
    breakStartTimes := some TC.Xhkg.breakStartTimes
    breakEndTimes := some TC.Xhkg.breakEndTimes
    specialCloses := TC.Xhkg.specialCloses
    specialClosesAdhoc := TC.Xhkg.specialClosesAdhoc }

end TC.Xhkg
