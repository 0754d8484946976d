import Verif.Model.Civil

/-!
# Holiday rules

`pandas.tseries.holiday` as the repository uses it (`Holiday`, `AbstractHolidayCalendar`, the
observance functions and offsets), the repository's own observance functions, and the factories of
`/repo/trading_calendars/common_holidays.py`.  Dates are day numbers (days since 1970-01-01); weekdays
are 0 = Monday ... 6 = Sunday (`trading_calendar.py` line 50).

pandas passes a rule's observance the whole index of reference dates first and falls back to calling
it date by date.  Every observance of the repository that works on an index (filters by year,
additional days) acts on each date separately, so an observance is a function from a reference date
to the list of dates it contributes (empty for a dropped date or `NaT`).
-/

namespace TC

/-! ### Observance functions of `pandas.tseries.holiday` -/

/-- `pandas.tseries.holiday.sunday_to_monday` (as in `exchange_calendar_xasx.py` line 77). -/
def sundayToMonday (d : Int) : Int := if weekday d = 6 then d + 1 else d

/-- `pandas.tseries.holiday.weekend_to_monday` (as in `exchange_calendar_xasx.py` line 41). -/
def weekendToMonday (d : Int) : Int :=
  if weekday d = 6 then d + 1 else if weekday d = 5 then d + 2 else d

/-- `pandas.tseries.holiday.next_monday` (as in `exchange_calendar_xnze.py` line 56). -/
def nextMonday (d : Int) : Int :=
  if weekday d = 5 then d + 2 else if weekday d = 6 then d + 1 else d

/-- `pandas.tseries.holiday.next_monday_or_tuesday` (as in `exchange_calendar_xnze.py` line 62). -/
def nextMondayOrTuesday (d : Int) : Int :=
  if weekday d = 5 ∨ weekday d = 6 then d + 2 else if weekday d = 0 then d + 1 else d

/-- `pandas.tseries.holiday.previous_friday` (as in `exchange_calendar_bvmf.py` line 145). -/
def previousFriday (d : Int) : Int :=
  if weekday d = 5 then d - 1 else if weekday d = 6 then d - 2 else d

/-- `pandas.tseries.holiday.nearest_workday` (as in `exchange_calendar_xtai.py` line 76). -/
def nearestWorkday (d : Int) : Int :=
  if weekday d = 5 then d - 1 else if weekday d = 6 then d + 1 else d

/-- The loop `while dt.weekday() > 4: dt -= timedelta(days=1)`; at most two days are stepped over,
`n` bounds the steps (for `previous_workday`, `exchange_calendar_xetr.py` line 81). -/
def backToWeekday : Nat → Int → Int
  | 0, d => d
  | n + 1, d => if 4 < weekday d then backToWeekday n (d - 1) else d

/-- `pandas.tseries.holiday.previous_workday`: one day back, then back over a weekend (as in
`exchange_calendar_xetr.py` line 81). -/
def previousWorkday (d : Int) : Int := backToWeekday 2 (d - 1)

/-- `vectorized_sunday_to_monday(dtix)`, `utils/pandas_utils.py` lines 51-67, on the nanosecond values of a
zone-naive index:
copy the values, compute the mask of Sundays, add one day where it is set. -/
def vectorizedSundayToMonday (dtix : List Int) : List Int :=
  let values := dtix
  let mask := dtix.map fun u => weekday (u / DAY) == 6
  List.zipWith (fun v b => if b then v + DAY else v) values mask

/-! ### Observance functions of the repository -/

/-- `four_day_weekend`, `exchange_calendar_xbud.py` lines 42-51. -/
def fourDayWeekend (d : Int) : List Int :=
  [d] ++ (if weekday d = 1 then [d - 1] else []) ++ (if weekday d = 3 then [d + 1] else [])

/-- The loop `while dt.weekday() != MONDAY: dt += timedelta(1)` of `exchange_calendar_xbue.py` lines
57-58; `n` bounds the steps. -/
def forwardToMonday : Nat → Int → Int
  | 0, d => d
  | n + 1, d => if weekday d ≠ 0 then forwardToMonday n (d + 1) else d

/-- `nearest_monday`, `exchange_calendar_xbue.py` lines 46-60. -/
def nearestMondayXbue (d : Int) : Int :=
  if weekday d = 0 ∨ weekday d = 1 ∨ weekday d = 2 then d - weekday d else forwardToMonday 6 d

/-- `cultural_diversity_observance`, `exchange_calendar_xbue.py` lines 63-72. -/
def culturalDiversity (d : Int) : List Int :=
  let d := nearestMondayXbue d
  if yearOf d ≠ 2012 then [d] else []

/-- The index filters that drop single years: `not_2018` (`exchange_calendar_xbue.py` lines 75-79),
`not_2010` (`exchange_calendar_xsgo.py` lines 77-83), `not_2004` (`exchange_calendar_xwar.py` lines
40-45). -/
def notYear (y : Int) (d : Int) : List Int := if yearOf d ≠ y then [d] else []

/-- `nearest_monday`, `exchange_calendar_xsgo.py` lines 47-59. -/
def nearestMondayXsgo (d : Int) : Int :=
  if weekday d = 1 ∨ weekday d = 2 ∨ weekday d = 3 then d - weekday d
  else if weekday d = 4 then d + 3 else d

/-- `tuesday_and_wednesday_to_friday`, `exchange_calendar_xsgo.py` lines 62-74. -/
def tuesdayAndWednesdayToFriday (d : Int) : Int :=
  if weekday d = 1 then d - 4 else if weekday d = 2 then d + 2 else d

/-- The observances of `exchange_calendar_xmos.py` lines 27-63 and `new_years_eve_observance` of
`xbkk_holidays.py` lines 16-20: drop some years, then `weekend_to_monday`. -/
def weekendToMondayExcept (ys : List Int) (d : Int) : List Int :=
  if ys.contains (yearOf d) then [] else [weekendToMonday d]

/-- `new_years_day_observance`, `xbkk_holidays.py` lines 23-27. -/
def nextMondayOrTuesdayExcept (y : Int) (d : Int) : List Int :=
  if yearOf d = y then [] else [nextMondayOrTuesday d]

/-- `songkran_festival_last_day_observance`, `xbkk_holidays.py` lines 30-37. -/
def songkranLastDay (d : Int) : Int := if weekday d = 6 ∨ weekday d = 0 then d + 1 else d

/-- `sunday_to_tuesday`, `xtks_holidays.py` lines 17-23. -/
def sundayToTuesday (d : Int) : Int := if weekday d = 6 then d + 2 else d

/-- `sunday_to_wednesday`, `xtks_holidays.py` lines 26-32. -/
def sundayToWednesday (d : Int) : Int := if weekday d = 6 then d + 3 else d

/-- `only_friday`, `exchange_calendar_xphs.py` lines 46-52. -/
def onlyFriday (d : Int) : List Int := if weekday d = 4 then [d] else []

/-- `taiwan_makeup_rule`, `exchange_calendar_xtai.py` lines 109-132. -/
def taiwanMakeup (d : Int) : List Int :=
  let extras :=
    (if weekday d = 1 then [d - 1] else []) ++ (if weekday d = 6 then [d + 1] else []) ++
    (if weekday d = 3 then [d + 1] else []) ++ (if weekday d = 5 then [d - 1] else [])
  [d] ++ extras.filter fun x => decide (2013 < yearOf x)

/-- `boxing_day_obs`, `exchange_calendar_xhkg.py` lines 238-241.  It compares the *method*
`dt.weekday` with numbers, so the first branch is never taken. -/
def boxingDayObs (d : Int) : Int := d

/-! ### Offsets -/

/-- `dt + DateOffset(weekday=WD(n))` (`dateutil.relativedelta.__radd__`): the `n`-th such weekday on
or after the date, for negative `n` on or before it (as in `common_holidays.py` line 149). -/
def addWeekday (wd n d : Int) : Int :=
  if 0 < n then d + ((n - 1) * 7 + (7 - weekday d + wd) % 7)
  else d - ((-n - 1) * 7 + (weekday d - wd) % 7)

/-- First day of the month following that of `d` (for `WeekOfMonth`, `exchange_calendar_xhkg.py` lines 80-82). -/
def nextMonthStart (d : Int) : Int :=
  if monthOf d = 12 then dayOf (yearOf d + 1) 1 1 else dayOf (yearOf d) (monthOf d + 1) 1

/-- `WeekOfMonth._get_offset_day`: day of the month of the `week`-th (from 0) weekday `wd` in the
month of `d` (for `exchange_calendar_xhkg.py` lines 80-82). -/
def weekOfMonthDay (week wd d : Int) : Int :=
  1 + (wd - weekday (d - dayOfMonth d + 1)) % 7 + week * 7

/-- `dt + WeekOfMonth(week=week, weekday=wd)` (n = 1) (as in `exchange_calendar_xhkg.py` lines 80-82). -/
def addWeekOfMonth (week wd d : Int) : Int :=
  let first := d - dayOfMonth d + 1
  if weekOfMonthDay week wd d > dayOfMonth d then first + weekOfMonthDay week wd first - 1
  else nextMonthStart d + weekOfMonthDay week wd (nextMonthStart d) - 1

/-- `LastWeekOfMonth._get_offset_day`, as the day number of the last weekday `wd` of the month of
`d` (for `exchange_calendar_xhkg.py` line 134). -/
def lastWeekdayOfMonth (wd d : Int) : Int :=
  let last := nextMonthStart d - 1
  last - (weekday last - wd) % 7

/-- `dt + LastWeekOfMonth(weekday=wd)` (n = 1) (as in `exchange_calendar_xhkg.py` line 134). -/
def addLastWeekOfMonth (wd d : Int) : Int :=
  if lastWeekdayOfMonth wd d > d then lastWeekdayOfMonth wd d
  else lastWeekdayOfMonth wd (nextMonthStart d)

/-- `Easter().apply` of pandas and `_HolidayOffset.apply` of `tase_holidays.py` lines 231-259, with
n = 1: the date of this year if it lies ahead, else the one of the next year. -/
def nextAnnual (f : Int → Int) (d : Int) : Int :=
  if d < f (yearOf d) then f (yearOf d) else f (yearOf d + 1)

/-- The offsets used by rules (as in `common_holidays.py` lines 87-152). -/
inductive Offset where
  /-- `Day(n)` -/
  | days (n : Int)
  /-- `Easter()` -/
  | easter
  /-- the yearly dates of `tase_holidays.py` -/
  | annual (f : Int → Int)
  /-- `DateOffset(weekday=WD(n))` -/
  | weekday (wd n : Int)
  /-- `WeekOfMonth(week=week, weekday=wd)` -/
  | weekOfMonth (week wd : Int)
  /-- `LastWeekOfMonth(weekday=wd)` -/
  | lastWeekOfMonth (wd : Int)

/-- `dt + offset` (as in `common_holidays.py` lines 87-152). -/
def Offset.apply : Offset → Int → Int
  | .days n, d => d + n
  | .easter, d => nextAnnual TC.easter d
  | .annual f, d => nextAnnual f d
  | .weekday wd n, d => addWeekday wd n d
  | .weekOfMonth week wd, d => addWeekOfMonth week wd d
  | .lastWeekOfMonth wd, d => addLastWeekOfMonth wd d

/-! ### Observances that use offsets -/

/-- `process_queen_birthday`, `exchange_calendar_xhkg.py` lines 73-85. -/
def processQueenBirthday (d : Int) : Int :=
  if [1974, 1981].contains (yearOf d) then addWeekday 6 1 d
  else if yearOf d < 1983 then sundayToMonday d
  else if [1985].contains (yearOf d) then addWeekOfMonth 3 0 d
  else if [1983, 1988, 1993, 1994].contains (yearOf d) then addWeekOfMonth 1 0 d
  else addWeekOfMonth 2 0 d

/-- `following_tuesday_every_four_years_observance`, `us_holidays.py` lines 41-42:
`dt + DateOffset(years=(4 - (dt.year % 4)) % 4, weekday=TU(1))`.  (The reference date is never
February 29, for which adding years would need clamping.) -/
def followingTuesdayEveryFourYears (d : Int) : Int :=
  addWeekday 1 1 (dayOf (yearOf d + (4 - yearOf d % 4) % 4) (monthOf d) (dayOfMonth d))

/-- `good_friday_unless_christmas_nye_friday`, `exchange_calendar_xcbf.py` lines 28-47, with
`Christmas.observance` = `nearest_workday`, `USNewYearsDay.observance` = `sunday_to_monday`
(`us_holidays.py` lines 65-69, 213-219) and `GoodFriday` = `[Easter(), Day(-2)]`. -/
def goodFridayUnlessChristmasNyeFriday (d : Int) : List Int :=
  if weekday (nearestWorkday (dayOf (yearOf d) 12 25)) ≠ 4 ∧
      weekday (sundayToMonday (dayOf (yearOf d) 1 1)) ≠ 4 then
    [nextAnnual easter d + -2]
  else []

/-- The observances used by rules (as in `common_holidays.py` lines 23-289). -/
inductive Obs where
  | sundayToMonday | weekendToMonday | nextMonday | nextMondayOrTuesday | previousFriday
  | nearestWorkday | previousWorkday
  | fourDayWeekend | nearestMondayXbue | culturalDiversity | notYear (y : Int)
  | nearestMondayXsgo | tuesdayAndWednesdayToFriday
  | weekendToMondayExcept (ys : List Int) | nextMondayOrTuesdayExcept (y : Int) | songkranLastDay
  | sundayToTuesday | sundayToWednesday | onlyFriday | taiwanMakeup | boxingDayObs
  /-- `next_monday_offset`, `exchange_calendar_xbog.py` line 43: `DateOffset(weekday=MO(1))` called
  as an observance -/
  | nextMondayOffset
  | processQueenBirthday | followingTuesdayEveryFourYears | goodFridayUnlessChristmasNyeFriday
  deriving DecidableEq

/-- The dates an observance contributes for a reference date (as in `common_holidays.py` lines 23-289). -/
def Obs.apply : Obs → Int → List Int
  | .sundayToMonday, d => [TC.sundayToMonday d]
  | .weekendToMonday, d => [TC.weekendToMonday d]
  | .nextMonday, d => [TC.nextMonday d]
  | .nextMondayOrTuesday, d => [TC.nextMondayOrTuesday d]
  | .previousFriday, d => [TC.previousFriday d]
  | .nearestWorkday, d => [TC.nearestWorkday d]
  | .previousWorkday, d => [TC.previousWorkday d]
  | .fourDayWeekend, d => TC.fourDayWeekend d
  | .nearestMondayXbue, d => [TC.nearestMondayXbue d]
  | .culturalDiversity, d => TC.culturalDiversity d
  | .notYear y, d => TC.notYear y d
  | .nearestMondayXsgo, d => [TC.nearestMondayXsgo d]
  | .tuesdayAndWednesdayToFriday, d => [TC.tuesdayAndWednesdayToFriday d]
  | .weekendToMondayExcept ys, d => TC.weekendToMondayExcept ys d
  | .nextMondayOrTuesdayExcept y, d => TC.nextMondayOrTuesdayExcept y d
  | .songkranLastDay, d => [TC.songkranLastDay d]
  | .sundayToTuesday, d => [TC.sundayToTuesday d]
  | .sundayToWednesday, d => [TC.sundayToWednesday d]
  | .onlyFriday, d => TC.onlyFriday d
  | .taiwanMakeup, d => TC.taiwanMakeup d
  | .boxingDayObs, d => [TC.boxingDayObs d]
  | .nextMondayOffset, d => [addWeekday 0 1 d]
  | .processQueenBirthday, d => [TC.processQueenBirthday d]
  | .followingTuesdayEveryFourYears, d => [TC.followingTuesdayEveryFourYears d]
  | .goodFridayUnlessChristmasNyeFriday, d => TC.goodFridayUnlessChristmasNyeFriday d

/-! ### Rules -/

/-- `pandas.tseries.holiday.Holiday(name, year, month, day, offset, observance, start_date, end_date,
days_of_week)`, without the name.  `offset` is a list (a single offset is a list of one, none is
the empty list) (as in `common_holidays.py` lines 23-289). -/
structure Rule where
  year : Option Int := none
  month : Int
  day : Int
  offsets : List Offset := []
  observance : Option Obs := none
  startDate : Option Int := none
  endDate : Option Int := none
  daysOfWeek : Option (List Int) := none

/-- `Holiday._apply_rule` on one reference date (pandas, as used by `trading_calendar.py` lines 207 and 1159-1168). -/
def Rule.applyRule (r : Rule) (d : Int) : List Int :=
  match r.observance with
  | some o => o.apply d
  | none => [r.offsets.foldl (fun d o => o.apply d) d]

/-- `Holiday._reference_dates`: the years whose reference dates are considered (pandas, as used by
`trading_calendar.py` lines 207 and 1159-1168). -/
def Rule.referenceYears (r : Rule) (start stop : Int) : List Int :=
  let y0 := yearOf (r.startDate.getD (start / DAY)) - 1
  let y1 := yearOf (r.endDate.getD (stop / DAY)) + 1
  (List.range (y1 - y0 + 1).toNat).map fun (i : Nat) => y0 + i

/-- The `days_of_week` filter of `Holiday.dates` (pandas, as used by `trading_calendar.py` lines 207 and 1159-1168).
-/
def Rule.allowsDay (r : Rule) (d : Int) : Bool :=
  match r.daysOfWeek with | none => true | some ws => ws.contains (weekday d)

/-- The rule's dates of one reference year, those on a day of the week the rule allows (pandas, as used by
`trading_calendar.py` lines 207 and 1159-1168). -/
def Rule.ofYear (r : Rule) (y : Int) : List Int :=
  (r.applyRule (dayOf y r.month r.day)).filter r.allowsDay

/-- `d` is not outside the rule's own `start_date` and `end_date` (pandas, as used by `trading_calendar.py` lines 207
and 1159-1168). -/
def Rule.inBounds (r : Rule) (d : Int) : Bool :=
  (match r.startDate with | none => true | some s => decide (s ≤ d)) &&
  (match r.endDate with | none => true | some e => decide (d ≤ e))

/-- `Holiday.dates(start, end)`, in nanoseconds.  A rule with a `year` yields that date, whatever the
window (pandas, as used by `trading_calendar.py` lines 207 and 1159-1168). -/
def Rule.dates (r : Rule) (start stop : Int) : List Int :=
  match r.year with
  | some y => [dayOf y r.month r.day * DAY]
  | none =>
      (((r.referenceYears start stop).flatMap r.ofYear).filter fun d =>
        r.inBounds d && decide (start ≤ d * DAY) && decide (d * DAY ≤ stop)).map (· * DAY)

/-- Insertion into a sorted list, behind equal entries (pandas, as used by `trading_calendar.py` lines 207 and
1159-1168). -/
def insertSorted (e : Int) : List Int → List Int
  | [] => [e]
  | f :: rest => if f ≤ e then f :: insertSorted e rest else e :: f :: rest

/-- `sort_index` of the concatenated dates (pandas, as used by `trading_calendar.py` lines 207 and 1159-1168). -/
def sortInts (xs : List Int) : List Int := xs.foldl (fun acc e => insertSorted e acc) []

/-- The concatenation and sorting in `AbstractHolidayCalendar.holidays(start, end)` (pandas, as used by
`trading_calendar.py` lines 207 and 1159-1168). -/
def rulesDates (rules : List Rule) (start stop : Int) : List Int :=
  sortInts (rules.flatMap fun r => r.dates start stop)

/-- `HolidayCalendar(rules).holidays(start, end)` on a fresh calendar (`trading_calendar.py` lines
1249-1251; every use of the repository constructs a new one), `holidays[start:end]` included. -/
def holidayCalendar (rules : List Rule) : HolidayFn := fun start stop =>
  (rulesDates rules start stop).filter fun u => decide (start ≤ u) && decide (u ≤ stop)

/-! ### The cache of a holiday calendar -/

/-- `AbstractHolidayCalendar._cache`: start, end and the sorted dates (pandas, as used by `trading_calendar.py` lines
207 and 1159-1168). -/
abbrev HolidayCache := Option (Int × Int × List Int)

/-- `AbstractHolidayCalendar.holidays(start, end)` on an instance with the given cache: recompute if
there is no cache or the window exceeds it, then slice (pandas, as used by `trading_calendar.py` lines 207 and
1159-1168). -/
def holidaysCached (rules : List Rule) (c : HolidayCache) (start stop : Int) :
    List Int × HolidayCache :=
  let c' := match c with
    | none => (start, stop, rulesDates rules start stop)
    | some c => if start < c.1 ∨ c.2.1 < stop then (start, stop, rulesDates rules start stop) else c
  (c'.2.2.filter fun u => decide (start ≤ u) && decide (u ≤ stop), some c')

/-! ### `common_holidays.py` -/

section
variable (startDate endDate : Option Int := none) (observance : Option Obs := none)
  (daysOfWeek : Option (List Int) := none)

/-- `new_years_day`, `common_holidays.py` lines 8-20. -/
def newYearsDay : Rule :=
  { month := 1, day := 1, startDate, endDate, observance, daysOfWeek }

/-- `new_years_eve`, `common_holidays.py` lines 23-35. -/
def newYearsEve : Rule :=
  { month := 12, day := 31, startDate, endDate, observance, daysOfWeek }

/-- `epiphany`, `common_holidays.py` lines 38-50. -/
def epiphany : Rule :=
  { month := 1, day := 6, startDate, endDate, observance, daysOfWeek }

/-- `anzac_day`, `common_holidays.py` lines 53-65. -/
def anzacDay : Rule :=
  { month := 4, day := 25, startDate, endDate, observance, daysOfWeek }

/-- `european_labour_day`, `common_holidays.py` lines 68-80. -/
def europeanLabourDay : Rule :=
  { month := 5, day := 1, startDate, endDate, observance, daysOfWeek }

/-- `saint_peter_and_saint_paul_day`, `common_holidays.py` lines 155-167. -/
def saintPeterAndSaintPaulDay : Rule :=
  { month := 6, day := 29, startDate, endDate, observance, daysOfWeek }

/-- `assumption_day`, `common_holidays.py` lines 170-182. -/
def assumptionDay : Rule :=
  { month := 8, day := 15, startDate, endDate, observance, daysOfWeek }

/-- `all_saints_day`, `common_holidays.py` lines 185-197. -/
def allSaintsDay : Rule :=
  { month := 11, day := 1, startDate, endDate, observance, daysOfWeek }

/-- `immaculate_conception`, `common_holidays.py` lines 200-212. -/
def immaculateConception : Rule :=
  { month := 12, day := 8, startDate, endDate, observance, daysOfWeek }

/-- `christmas_eve`, `common_holidays.py` lines 215-227. -/
def christmasEve : Rule :=
  { month := 12, day := 24, startDate, endDate, observance, daysOfWeek }

/-- `christmas`, `common_holidays.py` lines 230-242. -/
def christmas : Rule :=
  { month := 12, day := 25, startDate, endDate, observance, daysOfWeek }

/-- `boxing_day`, `common_holidays.py` lines 261-273. -/
def boxingDay : Rule :=
  { month := 12, day := 26, startDate, endDate, observance, daysOfWeek }
end

section
variable (startDate endDate : Option Int := none) (observance : Option Obs := none)

/-- `weekend_christmas`, `common_holidays.py` lines 245-258. -/
def weekendChristmas : Rule :=
  { month := 12, day := 27, daysOfWeek := some [0, 1], startDate, endDate, observance }

/-- `weekend_boxing_day`, `common_holidays.py` lines 276-289. -/
def weekendBoxingDay : Rule :=
  { month := 12, day := 28, daysOfWeek := some [0, 1], startDate, endDate, observance }
end

section
variable (startDate endDate : Option Int := none) (daysOfWeek : Option (List Int) := none)

/-- `holy_wednesday`, `common_holidays.py` lines 87-96. -/
def holyWednesday : Rule :=
  { month := 1, day := 1, offsets := [.easter, .days (-4)], startDate, endDate, daysOfWeek }

/-- `maundy_thursday`, `common_holidays.py` lines 99-108. -/
def maundyThursday : Rule :=
  { month := 1, day := 1, offsets := [.easter, .days (-3)], startDate, endDate, daysOfWeek }
end

section
variable (startDate endDate : Option Int := none)

/-- `ascension_day`, `common_holidays.py` lines 111-119. -/
def ascensionDay : Rule :=
  { month := 1, day := 1, offsets := [.easter, .days 39], startDate, endDate }

/-- `whit_monday`, `common_holidays.py` lines 122-130. -/
def whitMonday : Rule :=
  { month := 1, day := 1, offsets := [.easter, .days 50], startDate, endDate }

/-- `corpus_christi`, `common_holidays.py` lines 133-141. -/
def corpusChristi : Rule :=
  { month := 1, day := 1, offsets := [.easter, .days 60], startDate, endDate }

/-- `midsummer_eve`, `common_holidays.py` lines 144-152. -/
def midsummerEve : Rule :=
  { month := 6, day := 19, offsets := [.weekday 4 1], startDate, endDate }
end

/-- `pandas.tseries.holiday.GoodFriday` (as in `exchange_calendar_asex.py` line 139). -/
def goodFriday : Rule := { month := 1, day := 1, offsets := [.easter, .days (-2)] }

/-- `pandas.tseries.holiday.EasterMonday` (as in `exchange_calendar_asex.py` line 140). -/
def easterMonday : Rule := { month := 1, day := 1, offsets := [.easter, .days 1] }

/-- `pandas.tseries.holiday.USLaborDay` (as in `exchange_calendar_cmes.py` line 101). -/
def usLaborDay : Rule := { month := 9, day := 1, offsets := [.weekday 0 1] }

/-- `pandas.tseries.holiday.USPresidentsDay` (as in `exchange_calendar_cmes.py` line 99). -/
def usPresidentsDay : Rule := { month := 2, day := 1, offsets := [.weekday 0 3] }

/-- `pandas.tseries.holiday.USThanksgivingDay` (as in `exchange_calendar_cmes.py` line 103). -/
def usThanksgivingDay : Rule := { month := 11, day := 1, offsets := [.weekday 3 4] }

end TC
