"""Definitions that `gen_exchanges.py` does not translate: written by hand."""

# names that are not part of the model, with the reason
SKIP = {
    # month=7, day=(1, 2, 3): not a usable rule, and no calendar uses it
    ('us_holidays', 'BattleOfGettysburg'),
    # names used as observance and offset only
    ('exchange_calendar_xtae', None),
    ('us_futures_calendar', 'FUTURES_OPEN_TIME_OFFSET'),
    ('us_futures_calendar', 'FUTURES_CLOSE_TIME_OFFSET'),
    # part of `close_times`
    ('exchange_calendar_xsgo', '_starting_dates_and_close_times'),
    ('exchange_calendar_xhkg', 'regular_early_close_times'),
    # before_chinese_new_year_offset etc. are modelled below, on one date
    ('exchange_calendar_xtai', 'nearest_workday_after_2013'),
}

OFFSETS = {
    ('exchange_calendar_xbog', 'next_monday_offset'): '.weekday 0 1',
}

LOCAL_OBS = {
    ('exchange_calendar_xmos', 'new_years_eve_observance'): '(.weekendToMondayExcept [2008, 2009])',
    ('exchange_calendar_xmos', 'new_years_holiday_observance'): '(.weekendToMondayExcept [2016])',
    ('exchange_calendar_xmos', 'orthodox_christmas_observance'):
        '(.weekendToMondayExcept [2012, 2017])',
    ('exchange_calendar_xmos', 'defender_of_fatherland_observance'):
        '(.weekendToMondayExcept [2013, 2014, 2019])',
}

IMPORTS = {
    'exchange_calendar_asex': [],
}

DEFS = {}


def d(mod, name, kind, text):
    DEFS[(mod, name)] = (kind, text)


# --- ASEX ---------------------------------------------------------------------------------------
d('exchange_calendar_asex', 'orthodox_easter', 'dates', '''
/-- `orthodox_easter()` with its default arguments, `exchange_calendar_asex.py` lines 41-50: Orthodox
Easter of the years `range(1980, 2021)`. -/
def orthodoxEaster : List Int :=
  (List.range (2021 - 1980)).map fun (i : Nat) => TC.orthodoxEaster (1980 + (i : Int))
''')

# --- XSGO ---------------------------------------------------------------------------------------
d('exchange_calendar_xsgo', 'close_times', 'table', '''
/-- `close_times`, `exchange_calendar_xsgo.py` lines 213-218 and 271-275: 17:00, and for the years
`range(1980, 2050)` 16:00 from March 1 and 17:00 from November 1. -/
def closeTimes : TimeTable :=
  (none, hm 17 0) :: (List.range (2050 - 1980)).flatMap fun (i : Nat) =>
    [(some (dayOf (1980 + (i : Int)) 3 1 * DAY), hm 16 0),
     (some (dayOf (1980 + (i : Int)) 11 1 * DAY), hm 17 0)]
''')

# --- XTAI ---------------------------------------------------------------------------------------
d('exchange_calendar_xtai', 'before_chinese_new_year_offset', 'fun', '''
/-- `before_chinese_new_year_offset`, `exchange_calendar_xtai.py` lines 48-57. -/
def beforeChineseNewYearOffset (holidays : List Int) : List Int :=
  holidays.map TC.previousFriday
''')
d('exchange_calendar_xtai', 'chinese_new_year_offset', 'fun', '''
/-- `chinese_new_year_offset`, `exchange_calendar_xtai.py` lines 60-69. -/
def chineseNewYearOffset (holidays : List Int) : List Int :=
  holidays.map TC.nextMonday
''')
d('exchange_calendar_xtai', 'manual_nearest_workday', 'fun', '''
/-- `nearest_workday_after_2013`, `exchange_calendar_xtai.py` lines 72-76. -/
def nearestWorkdayAfter2013 (d : Int) : Int :=
  if yearOf d > 2013 then TC.nearestWorkday d else d

/-- `manual_nearest_workday`, `exchange_calendar_xtai.py` lines 79-88. -/
def manualNearestWorkday (holidays : List Int) : List Int :=
  holidays.map nearestWorkdayAfter2013
''')
d('exchange_calendar_xtai', 'manual_extra_days', 'fun', '''
/-- `manual_extra_days`, `exchange_calendar_xtai.py` lines 91-106. -/
def manualExtraDays (holidays : List Int) : List Int :=
  let fridayExtras := (holidays.filter fun d => weekday d == 3 && decide (yearOf d > 2006)).map (· + 1)
  let mondayExtras := (holidays.filter fun d => weekday d == 1 && decide (yearOf d > 2006)).map (· - 1)
  fridayExtras ++ mondayExtras
''')

# --- XKLS ---------------------------------------------------------------------------------------
d('exchange_calendar_xkls', 'special_closes_adhoc', 'specialdays', '''
/-- `collisions` in `special_closes_adhoc`, `exchange_calendar_xkls.py` lines 128-137. -/
def collisions : List Int :=
  [dayOf 1997 2 7, dayOf 1998 1 28, dayOf 2002 2 11, dayOf 2003 1 31, dayOf 2004 1 21,
   dayOf 2003 11 24]

/-- `special_closes_adhoc`, `exchange_calendar_xkls.py` lines 123-143.  The days are a python set,
whose order is not specified; the model keeps the order of the lists the set is made of and their
duplicates, neither of which the calendar depends on. -/
def specialClosesAdhoc : List (Int × List Int) :=
  [(regularEarlyClose,
    (TC.XklsHolidays.chineseNewYearsHalfDay ++ TC.XklsHolidays.eidAlFitrHalfDay).filter fun d =>
      !(collisions.contains d))]
''')

# --- BVMF ---------------------------------------------------------------------------------------
d('exchange_calendar_bvmf', 'adhoc_holidays', 'dates', '''
/-- `adhoc_holidays`, `exchange_calendar_bvmf.py` lines 200-202.  The list holds a `Holiday` object
instead of a date; numpy reads any object with the attributes `year`, `month` and `day` as that
date. -/
def adhoc : List Int :=
  [copaDoMundo2014].map fun r => dayOf (r.year.getD 0) r.month r.day
''')

# --- XHKG ---------------------------------------------------------------------------------------
d('exchange_calendar_xhkg', 'adhoc_holidays', 'dates', '''
/-- `lunar_new_years_eve` in `adhoc_holidays`, `exchange_calendar_xhkg.py` lines 348-353. -/
def lunarNewYearsEve : List Int :=
  (TC.LunisolarHolidays.chineseLunarNewYearDates.filter fun d =>
    weekday d == 5 && decide (yearOf d < 2013)).map (· - 1)

/-- `lunar_new_year_2`, line 355. -/
def lunarNewYear2 : List Int := TC.LunisolarHolidays.chineseLunarNewYearDates.map (· + 1)

/-- `lunar_new_year_3`, line 356. -/
def lunarNewYear3 : List Int := TC.LunisolarHolidays.chineseLunarNewYearDates.map (· + 2)

/-- `lunar_new_year_4`, lines 357-372. -/
def lunarNewYear4 : List Int :=
  (TC.LunisolarHolidays.chineseLunarNewYearDates.filter fun d =>
    (weekday d == 6 || weekday (d + 1) == 6 || weekday (d + 2) == 6) &&
      decide (yearOf d ≥ 2013)).map (· + 3)

/-- `years` and `easter_monday`, lines 377-378: `EasterMonday.dates` from the first day of the first
year to the first day of the year after the last one. -/
def easterMondays (qingming : List Int) : List Int :=
  let y0 := yearOf (qingming.headD 0)
  let y1 := yearOf (qingming.getLastD 0) + 1
  (TC.easterMonday.dates (dayOf y0 1 1 * DAY) (dayOf y1 1 1 * DAY)).map (· / DAY)

/-- `qingming_festival`, lines 374-383: Sundays move to Monday, then a date equal to the Easter Monday at
its position moves on by a day. -/
def qingmingFestival : List Int :=
  let q := TC.LunisolarHolidays.qingmingFestivalDates.map TC.sundayToMonday
  List.zipWith (fun d e => if d == e then d + 1 else d) q (easterMondays q)

/-- `mid_autumn_festival`, lines 389-393.  The assignment works on the array shared with the table
`day_after_mid_autumn_festival_dates`, so the table changes with the first access; later accesses
find no October 1 any more and leave it alone. -/
def midAutumnFestival : List Int :=
  dayAfterMidAutumnFestivalDates.map fun d =>
    if monthOf d == 10 && dayOfMonth d == 1 then d + 1 else d

/-- `adhoc_holidays`, `exchange_calendar_xhkg.py` lines 346-408. -/
def adhoc : List Int :=
  lunarNewYearsEve ++ TC.LunisolarHolidays.chineseLunarNewYearDates ++ lunarNewYear2 ++
    lunarNewYear3 ++ lunarNewYear4 ++ qingmingFestival ++
    TC.LunisolarHolidays.chineseBuddhasBirthdayDates.map TC.sundayToMonday ++
    TC.LunisolarHolidays.dragonBoatFestivalDates.map TC.sundayToMonday ++ midAutumnFestival ++
    TC.LunisolarHolidays.doubleNinthFestivalDates.map TC.sundayToMonday ++ hkAdhocClosures
''')
d('exchange_calendar_xhkg', 'special_closes_adhoc', 'specialdays', '''
/-- `regular_early_close_times`, `exchange_calendar_xhkg.py` lines 292-295. -/
def regularEarlyCloseTimes : List (Option Int × Int) :=
  [(none, hm 12 30), (some (dayOf 2011 3 7), hm 12 0)]

/-- `lunar_new_years_eve` in `special_closes_adhoc`, lines 446-453. -/
def lunarNewYearsEveEarly : List Int :=
  (TC.LunisolarHolidays.chineseLunarNewYearDates.filter fun d =>
    [1, 2, 3, 4, 5].contains (weekday d) && decide (yearOf d ≥ 2013)).map (· - 1)

/-- `selection(arr, start, end)`, lines 455-465. -/
def selection (arr : List Int) (start stop : Option Int) : List Int :=
  arr.filter fun d =>
    (match start with | none => true | some s => decide (s ≤ d)) &&
    (match stop with | none => true | some e => decide (d < e))

/-- `special_closes_adhoc`, `exchange_calendar_xhkg.py` lines 444-473: consecutive entries of the
table, the last one with `(None, None)`. -/
def specialClosesAdhoc : List (Int × List Int) :=
  List.zipWith (fun a b => (a.2, selection lunarNewYearsEveEarly a.1 b)) regularEarlyCloseTimes
    (regularEarlyCloseTimes.tail.map (·.1) ++ [none])
''')
