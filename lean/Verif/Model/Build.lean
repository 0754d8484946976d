import Verif.Model.TimeZone
import Verif.Model.Calendar

/-!
# Model of the construction of a calendar: `TradingCalendar.__init__` and its helpers

`/repo/trading_calendars/trading_calendar.py`.  Dates are nanosecond values of UTC midnights.
-/

namespace TC

/-! ### Business days -/

/-- Weekday of a day number (days since 1970-01-01, a Thursday): 0 = Monday ... 6 = Sunday
(`Timestamp.weekday()`; constants on `trading_calendar.py` line 50). -/
def weekday (d : Int) : Int := (d + 3) % 7

/-- First business day among the `n` days from `d` on: numpy's `busday_offset` rolling forward (for `self.day`,
`trading_calendar.py` lines 109 and 203-209). -/
def scanForward (bus : Int → Bool) : (n : Nat) → (d : Int) → Option Int
  | 0, _ => none
  | n + 1, d => if bus d then some d else scanForward bus n (d + 1)

/-- Last business day among the `n` days up to `d`: `busday_offset` rolling backward (for `self.day`,
`trading_calendar.py` lines 109 and 203-209). -/
def scanBackward (bus : Int → Bool) : (n : Nat) → (d : Int) → Option Int
  | 0, _ => none
  | n + 1, d => if bus d then some d else scanBackward bus n (d - 1)

/-- The loop of pandas' `generate_range`: emit `cur`, step to the next business day, stop beyond
`stop`.  `tod` is the time of day of the start, which the offset preserves.  `n` bounds the number
of days still inside the range (`trading_calendar.py` line 109). -/
def generateDays (bus : Int → Bool) (tod stop : Int) : (n : Nat) → (d : Int) → List Int
  | 0, _ => []
  | n + 1, d =>
      if d * DAY + tod ≤ stop then
        (d * DAY + tod) :: match scanForward bus n (d + 1) with
          | some d' => generateDays bus tod stop n d'
          | none => []
      else []

/-- `pd.date_range(start, end, freq=CustomBusinessDay(...), tz=UTC)`, `trading_calendar.py` line 109.  pandas'
`generate_range` rolls the
start forward to a business day, or, if it is one, the end back (`elif`), keeping their times of day; then it
steps from one to the other.  Searching is cut off at the other end of the range: a business day beyond it yields
no session anyway. -/
def dateRange (bus : Int → Bool) (start stop : Int) : List Int :=
  let sd := start / DAY
  let ed := stop / DAY
  let n := (ed - sd + 1).toNat
  if bus sd then
    match scanBackward bus n ed with
    | some d1 => generateDays bus (start % DAY) (d1 * DAY + stop % DAY) n sd
    | none => []
  else
    match scanForward bus n sd with
    | some d0 => generateDays bus (start % DAY) stop n d0
    | none => []

/-! ### Standard times -/

/-- `selection(arr, start, end)`, `trading_calendar.py` lines 55-65. -/
def selection (arr : List Int) (start stop : Option Int) : List Int :=
  arr.filter fun d =>
    (match start with | none => true | some s => decide (s ≤ d)) &&
    (match stop with | none => true | some e => decide (d < e))

/-- `toolz.sliding_window(2, seq)` (`trading_calendar.py` lines 78-81). -/
def slidingWindow2 {α : Type} : List α → List (α × α)
  | a :: b :: rest => (a, b) :: slidingWindow2 (b :: rest)
  | _ => []

/-- A table of times of day: `(start date or None, time)` entries, e.g. `open_times` (`trading_calendar.py` lines
219-254). -/
abbrev TimeTable := List (Option Int × Int)

/-- `_group_times(all_days, times, tz, offset)`, `trading_calendar.py` lines 68-83, for `times` not `None`.  The
terminating `(None, None)` entry's time is never read; it is 0 here.  `elements[0]` raises
`IndexError` for an empty table. -/
def groupTimes (allDays : List Int) (times : TimeTable) (z : Tz) (offset : Int := 0) :
    Py (List Int) := do
  let elements ← (slidingWindow2 (times ++ [(none, 0)])).mapM fun w =>
    daysAtTime (selection allDays w.1.1 w.2.1) w.1.2 z offset
  match elements with
  | [] => .error .indexError
  | e :: es => return e ++ es.flatten

/-- `_group_times` for break times: `None` gives `None` (`trading_calendar.py` lines 69-70). -/
def groupTimesOpt (allDays : List Int) (times : Option TimeTable) (z : Tz) :
    Py (Option (List Int)) :=
  match times with
  | none => .ok none
  | some t => (groupTimes allDays t z).map some

/-! ### Special dates -/

/-- A pandas holiday calendar as used here: `calendar.holidays(start, end)` (`trading_calendar.py` lines 207 and
1159-1168). -/
abbrev HolidayFn := Int → Int → List Int

/-- `scheduled_special_times`, `trading_calendar.py` lines 1158-1168: the holidays of the window with their times. -/
def scheduledSpecialTimes (calendar : HolidayFn) (start stop t : Int) (z : Tz) :
    Py (List (Int × Int)) := do
  let days := calendar start stop
  let times ← daysAtTime days t z
  return days.zip times

/-- The ad-hoc entries of `_special_dates`, `trading_calendar.py` lines 1098-1104. -/
def adHocSpecialTimes (dates : List Int) (t : Int) (z : Tz) : Py (List (Int × Int)) := do
  let times ← daysAtTime dates t z
  return dates.zip times

/-- Insertion into a series sorted by label, behind equal labels (for `sort_index`, `trading_calendar.py` line 1112).
-/
def insertByLabel (e : Int × Int) : List (Int × Int) → List (Int × Int)
  | [] => [e]
  | f :: rest => if f.1 ≤ e.1 then f :: insertByLabel e rest else e :: f :: rest

/-- `Series.sort_index()`, taken to be stable (pandas' quicksort leaves the order of equal labels
open; the theorems do not depend on it) (`trading_calendar.py` line 1112). -/
def sortByLabel (xs : List (Int × Int)) : List (Int × Int) :=
  xs.foldl (fun acc e => insertByLabel e acc) []

/-- `_special_dates`, `trading_calendar.py` lines 1061-1113: series `(label, time)` sorted by label, and restricted to
*times* (not labels) in `[start, end]`. -/
def specialDates (calendars : List (Int × HolidayFn)) (adHoc : List (Int × List Int)) (z : Tz)
    (start stop : Int) : Py (List (Int × Int)) := do
  let regular ← calendars.mapM fun c => scheduledSpecialTimes c.2 start stop c.1 z
  let adhoc ← adHoc.mapM fun c => adHocSpecialTimes c.2 c.1 z
  let merged := regular ++ adhoc
  if merged = [] then return []
  else
    let result := sortByLabel merged.flatten
    return result.filter fun e => decide (start ≤ e.2) && decide (e.2 ≤ stop)

/-- `session_labels.get_indexer(labels)`: position of each label, or -1 (`trading_calendar.py` lines 1192 and 1233).
-/
def getIndexer (sessionLabels labels : List Int) : List Int :=
  labels.map fun l => match sessionLabels.findIdx? (· == l) with
    | some i => (i : Int)
    | none => -1

/-- `values[indexer] = new`, numpy fancy assignment: in order, so the last one wins (`trading_calendar.py` lines 1205
and 1246). -/
def fancyAssign (values : List Int) : (indexer new : List Int) → List Int
  | i :: is, v :: vs => fancyAssign (values.set i.toNat v) is vs
  | _, _ => values

/-- `_overwrite_special_dates`, `trading_calendar.py` lines 1171-1205: the new contents of `opens_or_closes`. -/
def overwriteSpecialDates (sessionLabels column : List Int) (special : List (Int × Int)) :
    Py (List Int) :=
  if special = [] then .ok column
  else if sessionLabels.length ≠ column.length then
    .error (.valueError "Found misaligned dates while building calendar.")
  else
    let indexer := getIndexer sessionLabels (special.map (·.1))
    if indexer.contains (-1) then .error (.valueError "Special dates are not trading days.")
    else .ok (fancyAssign column indexer (special.map (·.2)))

/-- `_remove_breaks_for_special_dates`, `trading_calendar.py` lines 1208-1246. -/
def removeBreaksForSpecialDates (sessionLabels : List Int) (column : Option (List Int))
    (special : List (Int × Int)) : Py (Option (List Int)) :=
  match column with
  | none => .ok none
  | some column =>
    if special = [] then .ok (some column)
    else if sessionLabels.length ≠ column.length then
      .error (.valueError "Found misaligned dates while building calendar.")
    else
      let indexer := getIndexer sessionLabels (special.map (·.1))
      if indexer.contains (-1) then .error (.valueError "Special dates are not trading days.")
      else .ok (some (fancyAssign column indexer (indexer.map fun _ => NP_NAT)))

/-- `_check_breaks_match`, `trading_calendar.py` lines 1132-1155: `NaT`s must be in the same rows. -/
def checkBreaksMatch (breakStarts breakEnds : List Int) : Py Unit :=
  if (breakStarts.zip breakEnds).all (fun p => (NP_NAT == p.1) == (NP_NAT == p.2)) then .ok ()
  else .error (.valueError "Mismatched market breaks")

/-! ### The constructor -/

/-- What a calendar class defines (class attributes and properties of `TradingCalendar`,
`trading_calendar.py` lines 203-361).  `weekmask` is the set of enabled weekdays. -/
structure Config where
  tz : Tz
  weekmask : Int → Bool := fun wd => decide (wd < 5)
  regularHolidays : Option HolidayFn := none
  adhocHolidays : List Int := []
  openTimes : TimeTable
  breakStartTimes : Option TimeTable := none
  breakEndTimes : Option TimeTable := none
  closeTimes : TimeTable
  openOffset : Int := 0
  closeOffset : Int := 0
  specialOpens : List (Int × HolidayFn) := []
  specialOpensAdhoc : List (Int × List Int) := []
  specialCloses : List (Int × HolidayFn) := []
  specialClosesAdhoc : List (Int × List Int) := []

/-- pandas' default window of `AbstractHolidayCalendar.holidays()`: 1970-01-01 to 2200-12-31
(pandas >= 1.0; older releases end in 2030) (for `self.day`, `trading_calendar.py` lines 203-209). -/
def HOLIDAYS_START : Int := 0
/-- See `HOLIDAYS_START`: 2200-12-31 is day 84370 (for `self.day`, `trading_calendar.py` lines 203-209). -/
def HOLIDAYS_END : Int := 84370 * DAY

/-- The holidays of `self.day` (`trading_calendar.py` lines 203-209): `CustomBusinessDay(holidays=adhoc_holidays,
calendar=regular_holidays, ...)` collects `holidays + calendar.holidays()` over pandas' default
window. -/
def Config.holidays (cfg : Config) : List Int :=
  cfg.adhocHolidays ++
    match cfg.regularHolidays with
    | none => []
    | some cal => cal HOLIDAYS_START HOLIDAYS_END

/-- The business-day test of `self.day` (`trading_calendar.py` lines 203-209): weekday enabled by the weekmask and day
(dates are truncated to days by numpy's busdaycalendar) not a holiday. -/
def Config.isBusinessDay (cfg : Config) (d : Int) : Bool :=
  cfg.weekmask (weekday d) && !(cfg.holidays.map (· / DAY)).contains d

/-- A constructed calendar: the schedule, `first/last_trading_session`, `late_opens`,
`early_closes` (`trading_calendar.py` lines 155-201). -/
structure Built where
  cal : Cal
  firstTradingSession : Int
  lastTradingSession : Int
  lateOpens : List Int
  earlyCloses : List Int
  deriving DecidableEq, Repr

/-- `pd.DatetimeIndex(special.map(self.minute_index_to_session_labels))`, `trading_calendar.py` lines 195-201: pandas
calls
the function on the whole index first; if that raises it retries element by element, and a
`Timestamp` has no `is_monotonic_increasing`, so an `AttributeError` comes out. -/
def mapToLabels (c : Cal) (special : List (Int × Int)) : Py (List Int) :=
  match c.minuteIndexToSessionLabels (special.map (·.2)) with
  | .ok ls => .ok ls
  | .error _ => .error .attributeError

/-- The result of the first part of `__init__`: the schedule and the two series of applied special
times (`trading_calendar.py` lines 100-164). -/
structure Schedule where
  cal : Cal
  specialOpens : List (Int × Int)
  specialCloses : List (Int × Int)
  deriving DecidableEq, Repr

/-- `TradingCalendar.__init__`, `trading_calendar.py` lines 100-184: from the business days to the checked schedule. -/
def buildSchedule (cfg : Config) (start stop : Int) : Py Schedule := do
  let allDays := dateRange cfg.isBusinessDay start stop
  let opens ← groupTimes allDays cfg.openTimes cfg.tz cfg.openOffset
  let breakStarts ← groupTimesOpt allDays cfg.breakStartTimes cfg.tz
  let breakEnds ← groupTimesOpt allDays cfg.breakEndTimes cfg.tz
  let closes ← groupTimes allDays cfg.closeTimes cfg.tz cfg.closeOffset
  let specialOpens ← specialDates cfg.specialOpens cfg.specialOpensAdhoc cfg.tz start stop
  let specialCloses ← specialDates cfg.specialCloses cfg.specialClosesAdhoc cfg.tz start stop
  let opens ← overwriteSpecialDates allDays opens specialOpens
  let closes ← overwriteSpecialDates allDays closes specialCloses
  let breakStarts ← removeBreaksForSpecialDates allDays breakStarts specialCloses
  let breakEnds ← removeBreaksForSpecialDates allDays breakEnds specialCloses
  -- the DataFrame: `None` columns become NaT, other columns must have the index's length
  let breakStarts := breakStarts.getD (allDays.map fun _ => NP_NAT)
  let breakEnds := breakEnds.getD (allDays.map fun _ => NP_NAT)
  if opens.length ≠ allDays.length ∨ breakStarts.length ≠ allDays.length ∨
      breakEnds.length ≠ allDays.length ∨ closes.length ≠ allDays.length then
    .error (.valueError "Shape of passed values")
  else
    checkBreaksMatch breakStarts breakEnds
    return { cal := { sessions := allDays, opens, breakStarts, breakEnds, closes }
             specialOpens, specialCloses }

/-- `TradingCalendar.__init__`, `trading_calendar.py` lines 100-201. -/
def build (cfg : Config) (start stop : Int) : Py Built := do
  let sch ← buildSchedule cfg start stop
  let cal := sch.cal
  let _ ← computeAllMinutes cal.opens cal.breakStarts cal.breakEnds cal.closes
  let first ← pyIndex cal.sessions 0
  let last ← pyIndex cal.sessions (-1)
  let lateOpens ← mapToLabels cal sch.specialOpens
  let earlyCloses ← mapToLabels cal sch.specialCloses
  return { cal, firstTradingSession := first, lastTradingSession := last, lateOpens, earlyCloses }

end TC
