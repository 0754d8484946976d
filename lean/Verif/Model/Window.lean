import Verif.Model.Build

/-!
# The window in which pandas expands holiday calendars

`AbstractHolidayCalendar.holidays()` without arguments, as `CustomBusinessDay(calendar=...)` calls it, covers
`AbstractHolidayCalendar.start_date` to `end_date`.  These are 1970-01-01 and 2030-12-31 up to pandas 0.25, then
1970-01-01 and 2200-12-31, which `Model/Build` has.
-/

namespace TC

/-- A class under a release of pandas that expands holiday calendars from `w₀` to `w₁` by default: `self.day`,
`trading_calendar.py` lines 203-209, is the only use of `regular_holidays`. -/
def Config.within (cfg : Config) (w₀ w₁ : Int) : Config :=
  { cfg with regularHolidays := cfg.regularHolidays.map fun cal => fun _ _ => cal w₀ w₁ }

end TC
