import Verif.Model.Holiday

/-!
# Exchange calendars

What an exchange module of the repository configures, in the vocabulary of holiday rules and day
numbers, and how it becomes the configuration of `TradingCalendar.__init__`.
-/

namespace TC

/-- The class attributes and properties of a `TradingCalendar` subclass (defaults:
`trading_calendar.py` lines 203-361), apart from the time zone.  Dates are day numbers.  No calendar
of the repository defines special opens, so they have no field. -/
structure Exchange where
  /-- `weekmask`, as the list of enabled weekdays; default `1111100`, `trading_calendar.py` lines
  253-264 -/
  weekdays : List Int := [0, 1, 2, 3, 4]
  /-- the rules of `regular_holidays`; a calendar without any (`None`) has the empty list, which
  yields no dates either -/
  regular : List Rule := []
  /-- `adhoc_holidays` -/
  adhoc : List Int := []
  openTimes : TimeTable
  closeTimes : TimeTable
  breakStartTimes : Option TimeTable := none
  breakEndTimes : Option TimeTable := none
  openOffset : Int := 0
  closeOffset : Int := 0
  /-- `special_closes`: time of day and the rules of the holiday calendar -/
  specialCloses : List (Int × List Rule) := []
  /-- `special_closes_adhoc` -/
  specialClosesAdhoc : List (Int × List Int) := []

/-- The configuration `TradingCalendar.__init__` (`trading_calendar.py` lines 100-201) reads from an instance of the
class, given the transitions of its time zone. -/
def Exchange.config (x : Exchange) (z : Tz) : Config :=
  { tz := z
    weekmask := fun w => x.weekdays.contains w
    regularHolidays := some (holidayCalendar x.regular)
    adhocHolidays := x.adhoc.map (· * DAY)
    openTimes := x.openTimes
    breakStartTimes := x.breakStartTimes
    breakEndTimes := x.breakEndTimes
    closeTimes := x.closeTimes
    openOffset := x.openOffset
    closeOffset := x.closeOffset
    specialCloses := x.specialCloses.map fun e => (e.1, holidayCalendar e.2)
    specialClosesAdhoc := x.specialClosesAdhoc.map fun e => (e.1, e.2.map (· * DAY)) }

/-- The days from `a` to `b`, both included: `pd.date_range(a, b)` (`exchange_calendar_asex.py` line 151,
`exchange_calendar_xtse.py` line 96). -/
def dayRange (a b : Int) : List Int := (List.range (b - a + 1).toNat).map fun (i : Nat) => a + i

end TC
