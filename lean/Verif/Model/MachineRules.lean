import Verif.Model.Machine
import Verif.Model.Defaults

/-!
# Holiday rules in machine arithmetic

pandas expands the rules of a holiday calendar from one year before the window to one year after it, and every date
on the way is a `Timestamp`, that is int64 nanoseconds.  A date outside raises `OutOfBoundsDatetime`, which is a
`ValueError`.  So a rule can fail although the window itself can be expressed.
-/

namespace TC

/-- The `OutOfBoundsDatetime` of pandas, a `ValueError` (raised below `trading_calendar.py` lines 207 and 1159). -/
def outOfBounds : PyErr := .valueError "Out of bounds nanosecond timestamp"

/-- `Timestamp(datetime)` for midnight of day `d` (pandas, as used by `trading_calendar.py` lines 207 and 1159). -/
def stampM (d : Int) : Py Int :=
  if -9223372036854775808 ≤ d * DAY ∧ d * DAY ≤ 9223372036854775807 then .ok d else .error outOfBounds

/-- `Holiday._apply_rule` on one reference date, see `Rule.applyRule` (pandas, as used by `trading_calendar.py` lines
207 and 1159-1168).  Each offset yields a `Timestamp`, an observance does.  Simplified: steps inside one offset or one
observance are not checked. -/
def Rule.applyRuleM (r : Rule) (d : Int) : Py (List Int) :=
  match r.observance with
  | some o => (o.apply d).mapM stampM
  | none => do
    let e ← r.offsets.foldlM (fun d o => stampM (o.apply d)) d
    return [e]

/-- The rule's dates of one reference year, see `Rule.ofYear` (pandas, as used by `trading_calendar.py` lines 207 and
1159-1168). -/
def Rule.ofYearM (r : Rule) (y : Int) : Py (List Int) := do
  let d ← stampM (dayOf y r.month r.day)
  let ds ← r.applyRuleM d
  return ds.filter r.allowsDay

/-- `Holiday.dates(start, end)`, see `Rule.dates` (pandas, as used by `trading_calendar.py` lines 207 and 1159-1168):
both ends of the reference dates are made before the dates between them.  Simplified: all offsets and observances
are applied to one reference date before the next one is made, whereas pandas makes all reference dates first; the
error is the same. -/
def Rule.datesM (r : Rule) (start stop : Int) : Py (List Int) :=
  match r.year with
  | some y => do
    let d ← stampM (dayOf y r.month r.day)
    return [d * DAY]
  | none => do
    let _ ← stampM (dayOf (yearOf (r.startDate.getD (start / DAY)) - 1) r.month r.day)
    let _ ← stampM (dayOf (yearOf (r.endDate.getD (stop / DAY)) + 1) r.month r.day)
    let ds ← (r.referenceYears start stop).mapM r.ofYearM
    return (ds.flatten.filter fun d =>
      r.inBounds d && decide (start ≤ d * DAY) && decide (d * DAY ≤ stop)).map (· * DAY)

/-- `HolidayCalendar(rules).holidays(start, end)` on a fresh calendar (`trading_calendar.py` lines 1249-1251), see
`holidayCalendar`. -/
def holidayCalendarM (rules : List Rule) (start stop : Int) : Py (List Int) := do
  let ds ← rules.mapM fun r => r.datesM start stop
  return (sortInts ds.flatten).filter fun u => decide (start ≤ u) && decide (u ≤ stop)

/-- What `TradingCalendar.__init__` (`trading_calendar.py` lines 100-201) reads from an instance of the class, see
`Exchange.config`, with its holiday calendars expanded: the regular holidays over pandas' default window (line 207),
the calendars of special closes from `start` to `stop` (line 1159).  Simplified: the expansions come before everything
else, so which of several errors is raised is not modelled. -/
def Exchange.configM (x : Exchange) (z : Tz) (start stop : Int) : Py Config := do
  let regular ← holidayCalendarM x.regular HOLIDAYS_START HOLIDAYS_END
  let specials ← x.specialCloses.mapM fun e => do
    let ds ← holidayCalendarM e.2 start stop
    return (e.1, ds)
  return { x.config z with
    regularHolidays := some fun _ _ => regular
    specialCloses := specials.map fun e => (e.1, fun _ _ => e.2) }

/-- `TradingCalendar.__init__`, `trading_calendar.py` lines 100-201, of an exchange in machine arithmetic. -/
def Exchange.initM (M : Machine) (x : Exchange) (z : Tz) (start stop : Int) : Py Built := do
  let cfg ← x.configM z start stop
  buildM M cfg start stop

/-- Calling the class with bounds in machine arithmetic, see `CalendarClass.constructFor`: `trading_calendar.py` line
100, `precomputed_trading_calendar.py` lines 13-48, `exchange_calendar_xhkg.py` lines 297-326. -/
def CalendarClass.constructM (M : Machine) (start stop : Int) : CalendarClass → Py Built
  | .exchange x z _ => x.initM M z start stop
  | .precomputed x z => do
    let earliest := yearOf (← npMin x.adhoc)
    let latest := yearOf (← npMax x.adhoc)
    let b ← x.initM M z start stop
    checkYears earliest latest b
  | .hongKong => do
    let b ← Xhkg.exchange.initM M Xhkg.zone start stop
    let earliest := yearOf (← npMax (← Xhkg.lunisolarHolidays.mapM npMin))
    let latest := yearOf (← npMin (← Xhkg.lunisolarHolidays.mapM npMax))
    checkYears earliest latest b
  | .simple cfg => buildM M cfg start stop

end TC
