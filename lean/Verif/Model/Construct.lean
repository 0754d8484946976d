import Verif.Model.Exchange
import Verif.Model.Exchanges.Xhkg

/-!
# Constructors of calendar classes: default bounds and checks of the recorded years
-/

namespace TC

/-- `np.min`; of an empty sequence it raises `ValueError` (`precomputed_trading_calendar.py` line 14). -/
def npMin : List Int → Py Int
  | [] => .error (.valueError "zero-size array to reduction operation minimum which has no identity")
  | x :: xs => .ok (xs.foldl min x)

/-- `np.max`; of an empty sequence it raises `ValueError` (`precomputed_trading_calendar.py` line 15). -/
def npMax : List Int → Py Int
  | [] => .error (.valueError "zero-size array to reduction operation maximum which has no identity")
  | x :: xs => .ok (xs.foldl max x)

/-- `Timestamp.year` of a nanosecond value (`precomputed_trading_calendar.py` lines 14-15). -/
def yearOfInstant (t : Int) : Int := yearOf (t / DAY)

/-- The checks at the end of `PrecomputedTradingCalendar.__init__`,
`/repo/trading_calendars/precomputed_trading_calendar.py` lines 28-48, and of
`XHKGExchangeCalendar.__init__`, `/repo/trading_calendars/exchange_calendar_xhkg.py` lines 308-326.  The
messages are shortened. -/
def checkYears (earliest latest : Int) (b : Built) : Py Built :=
  if earliest > yearOfInstant b.firstTradingSession then
    .error (.valueError "holidays are only recorded back to")
  else if latest < yearOfInstant b.lastTradingSession then
    .error (.valueError "holidays are only recorded to")
  else .ok b

/-- `PrecomputedTradingCalendar.__init__`, `/repo/trading_calendars/precomputed_trading_calendar.py` lines
13-48: `none` is the default of `start` and `end`; `adhoc_holidays` is `precomputed_holidays` (lines
54-56). -/
def Exchange.precomputedInit (x : Exchange) (z : Tz) (start stop : Option Int) : Py Built := do
  let earliest := yearOf (← npMin x.adhoc)
  let latest := yearOf (← npMax x.adhoc)
  let b ← build (x.config z) (start.getD (dayOf earliest 1 1 * DAY)) (stop.getD (dayOf latest 12 31 * DAY))
  checkYears earliest latest b

namespace Xhkg

/-- `lunisolar_holidays`, `/repo/trading_calendars/exchange_calendar_xhkg.py` lines 300-307.  By then
`adhoc_holidays` has moved October 1 in `day_after_mid_autumn_festival_dates` to October 2 (lines
389-393). -/
def lunisolarHolidays : List (List Int) :=
  [LunisolarHolidays.chineseBuddhasBirthdayDates, LunisolarHolidays.chineseLunarNewYearDates,
   midAutumnFestival, LunisolarHolidays.doubleNinthFestivalDates,
   LunisolarHolidays.dragonBoatFestivalDates, LunisolarHolidays.qingmingFestivalDates]

/-- `XHKGExchangeCalendar.__init__`, `/repo/trading_calendars/exchange_calendar_xhkg.py` lines 297-326,
given the bounds (the defaults are those of `TradingCalendar`). -/
def init (z : Tz) (start stop : Int) : Py Built := do
  let b ← build (exchange.config z) start stop
  let earliest := yearOf (← npMax (← lunisolarHolidays.mapM npMin))
  let latest := yearOf (← npMin (← lunisolarHolidays.mapM npMax))
  checkYears earliest latest b

end Xhkg

end TC
