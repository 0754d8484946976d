import Verif.Model.Build

/-!
# The construction of a calendar in machine arithmetic

The other models compute with unbounded integers.  The code computes with int64 nanoseconds, and counts minutes in
float64.  What an operation does when its result does not fit depends on which part of pandas or numpy performs it:
some wrap around, some raise.  Here every operation goes through a `Machine`, of which nothing is assumed except (in
`Spec/Machine.lean`) that it is exact when the result fits.
-/

namespace TC

/-- Arithmetic as pandas and numpy offer it to `trading_calendar.py` lines 100-201 and 274-300,
`calendar_helpers.py` lines 42-69 and `pandas_utils.py` lines 37-48:
conversion of a Python integer to int64, int64 addition, subtraction and multiplication, float64 addition (on
integral values). -/
structure Machine where
  lit : Int → Py Int
  add : Int → Int → Py Int
  sub : Int → Int → Py Int
  mul : Int → Int → Py Int
  fadd : Int → Int → Py Int

/-- `Tz.localize` (see there; pandas' `tz_localize_to_utc`, called on line 48 of `pandas_utils.py`) with its five
sums and differences. -/
def Tz.localizeM (M : Machine) (z : Tz) (wall : Int) : Py Int := do
  let before ← M.sub wall DAY
  let after ← M.add wall DAY
  let left ← M.sub wall (z.offsetAt before)
  let leftBack ← M.add left (z.offsetAt left)
  let right ← M.sub wall (z.offsetAt after)
  let rightBack ← M.add right (z.offsetAt right)
  if leftBack = wall ∧ rightBack = wall then
    if left = right then .ok left else .error .ambiguousTime
  else if leftBack = wall then .ok left
  else if rightBack = wall then .ok right
  else .error .nonExistentTime

/-- `days_at_time`, `pandas_utils.py` lines 6-48: the `Timedelta`, the vector sum `days + delta`, the
localization. -/
def daysAtTimeM (M : Machine) (days : List Int) (t : Int) (z : Tz) (dayOffset : Int := 0) : Py (List Int) := do
  let delta ← M.lit (dayOffset * DAY + t)
  let walls ← days.mapM fun d => M.add d delta
  walls.mapM (z.localizeM M)

/-- `_group_times`, `trading_calendar.py` lines 68-83 (see `groupTimes`). -/
def groupTimesM (M : Machine) (allDays : List Int) (times : TimeTable) (z : Tz) (offset : Int := 0) :
    Py (List Int) := do
  let elements ← (slidingWindow2 (times ++ [(none, 0)])).mapM fun w =>
    daysAtTimeM M (selection allDays w.1.1 w.2.1) w.1.2 z offset
  match elements with
  | [] => .error .indexError
  | e :: es => return e ++ es.flatten

/-- `_group_times` for break times, `trading_calendar.py` lines 68-83 (see `groupTimesOpt`). -/
def groupTimesOptM (M : Machine) (allDays : List Int) (times : Option TimeTable) (z : Tz) :
    Py (Option (List Int)) :=
  match times with
  | none => .ok none
  | some t => (groupTimesM M allDays t z).map some

/-- `scheduled_special_times`, `trading_calendar.py` lines 1158-1168. -/
def scheduledSpecialTimesM (M : Machine) (calendar : HolidayFn) (start stop t : Int) (z : Tz) :
    Py (List (Int × Int)) := do
  let days := calendar start stop
  let times ← daysAtTimeM M days t z
  return days.zip times

/-- The ad-hoc entries of `_special_dates`, `trading_calendar.py` lines 1098-1104. -/
def adHocSpecialTimesM (M : Machine) (dates : List Int) (t : Int) (z : Tz) : Py (List (Int × Int)) := do
  let times ← daysAtTimeM M dates t z
  return dates.zip times

/-- `_special_dates`, `trading_calendar.py` lines 1061-1113 (see `specialDates`). -/
def specialDatesM (M : Machine) (calendars : List (Int × HolidayFn)) (adHoc : List (Int × List Int)) (z : Tz)
    (start stop : Int) : Py (List (Int × Int)) := do
  let regular ← calendars.mapM fun c => scheduledSpecialTimesM M c.2 start stop c.1 z
  let adhoc ← adHoc.mapM fun c => adHocSpecialTimesM M c.2 c.1 z
  let merged := regular ++ adhoc
  if merged = [] then return []
  else
    let result := sortByLabel merged.flatten
    return result.filter fun e => decide (start ≤ e.2) && decide (e.2 ≤ stop)

/-- `np.arange(start, stop, step)` for `step > 0`: the number of elements comes from `stop - start`, element `k` is
`start + k * step` (`calendar_helpers.py` lines 48-67). -/
def arangeM (M : Machine) (start stop step : Int) : Py (List Int) := do
  let diff ← M.sub stop start
  (List.range ((diff + step - 1) / step).toNat).mapM fun (k : Nat) => do
    let shift ← M.mul k step
    M.add start shift

/-- One session in the loop of `compute_all_minutes`, `calendar_helpers.py` lines 42-68. -/
def sessionPiecesM (M : Machine) (o bs be c : Int) : Py (List (List Int)) :=
  if bs ≠ NP_NAT then do
    let stop1 ← M.add bs MINUTE
    let piece1 ← arangeM M o stop1 MINUTE
    let stop2 ← M.add c MINUTE
    let piece2 ← arangeM M be stop2 MINUTE
    return [piece1, piece2]
  else do
    let stop ← M.add c MINUTE
    let piece ← arangeM M o stop MINUTE
    return [piece]

/-- The loop of `compute_all_minutes`, `calendar_helpers.py` lines 42-68 (see `minutePieces`). -/
def minutePiecesM (M : Machine) : (opens breakStarts breakEnds closes : List Int) → Py (List (List Int))
  | o :: os, bs :: bss, be :: bes, c :: cs => do
      let pieces ← sessionPiecesM M o bs be c
      let rest ← minutePiecesM M os bss bes cs
      return pieces ++ rest
  | _, _, _, _ => .ok []

/-- `compute_all_minutes`, `calendar_helpers.py` lines 31-70. -/
def computeAllMinutesM (M : Machine) (opens breakStarts breakEnds closes : List Int) : Py (List Int) := do
  let pieces ← minutePiecesM M opens breakStarts breakEnds closes
  npConcatenate pieces

/-- `TradingCalendar.__init__`, `trading_calendar.py` lines 100-184 (see `buildSchedule`). -/
def buildScheduleM (M : Machine) (cfg : Config) (start stop : Int) : Py Schedule := do
  let allDays := dateRange cfg.isBusinessDay start stop
  let opens ← groupTimesM M allDays cfg.openTimes cfg.tz cfg.openOffset
  let breakStarts ← groupTimesOptM M allDays cfg.breakStartTimes cfg.tz
  let breakEnds ← groupTimesOptM M allDays cfg.breakEndTimes cfg.tz
  let closes ← groupTimesM M allDays cfg.closeTimes cfg.tz cfg.closeOffset
  let specialOpens ← specialDatesM M cfg.specialOpens cfg.specialOpensAdhoc cfg.tz start stop
  let specialCloses ← specialDatesM M cfg.specialCloses cfg.specialClosesAdhoc cfg.tz start stop
  let opens ← overwriteSpecialDates allDays opens specialOpens
  let closes ← overwriteSpecialDates allDays closes specialCloses
  let breakStarts ← removeBreaksForSpecialDates allDays breakStarts specialCloses
  let breakEnds ← removeBreaksForSpecialDates allDays breakEnds specialCloses
  let breakStarts := breakStarts.getD (allDays.map fun _ => NP_NAT)
  let breakEnds := breakEnds.getD (allDays.map fun _ => NP_NAT)
  if opens.length ≠ allDays.length ∨ breakStarts.length ≠ allDays.length ∨
      breakEnds.length ≠ allDays.length ∨ closes.length ≠ allDays.length then
    .error (.valueError "Shape of passed values")
  else
    checkBreaksMatch breakStarts breakEnds
    return { cal := { sessions := allDays, opens, breakStarts, breakEnds, closes }
             specialOpens, specialCloses }

/-- `TradingCalendar.__init__`, `trading_calendar.py` lines 100-201 (see `build`). -/
def buildM (M : Machine) (cfg : Config) (start stop : Int) : Py Built := do
  let sch ← buildScheduleM M cfg start stop
  let cal := sch.cal
  let _ ← computeAllMinutesM M cal.opens cal.breakStarts cal.breakEnds cal.closes
  let first ← pyIndex cal.sessions 0
  let last ← pyIndex cal.sessions (-1)
  let lateOpens ← mapToLabels cal sch.specialOpens
  let earlyCloses ← mapToLabels cal sch.specialCloses
  return { cal, firstTradingSession := first, lastTradingSession := last, lateOpens, earlyCloses }

/-- One entry of `_minutes_per_session`, `trading_calendar.py` lines 274-283: int64 differences, then
`astype("timedelta64[m]")`, which
yields a float64, plus one. -/
def sessionMinuteCountM (M : Machine) (o bs be cl : Int) : Py Int := do
  let diff ← M.sub cl o
  let breakDiff ← if bs = NP_NAT ∨ be = NP_NAT then .ok 0 else M.sub be bs
  let rest ← M.sub diff breakDiff
  M.fadd (rest / MINUTE) 1

/-- `_minutes_per_session`, `trading_calendar.py` lines 274-283. -/
def minutesPerSessionM (M : Machine) : (opens breakStarts breakEnds closes : List Int) → Py (List Int)
  | o :: os, bs :: bss, be :: bes, cl :: cls => do
      let n ← sessionMinuteCountM M o bs be cl
      let ns ← minutesPerSessionM M os bss bes cls
      return n :: ns
  | _, _, _, _ => .ok []

/-- `Series.sum()` of float64 values, added from the left (numpy's pairwise order differs for long series; with exact
sums the order makes no difference) (`trading_calendar.py` lines 285-300). -/
def sumM (M : Machine) : List Int → Int → Py Int
  | [], acc => .ok acc
  | n :: ns, acc => do
      let acc ← M.fadd acc n
      sumM M ns acc

/-- `minutes_count_for_sessions_in_range`, `trading_calendar.py` lines 285-300. -/
def minutesCountM (M : Machine) (c : Cal) (start stop : Int) : Py Int := do
  let counts ← minutesPerSessionM M c.opens c.breakStarts c.breakEnds c.closes
  let (a, b) := sliceIndexer c.sessions start stop
  sumM M (pySlice counts a b) 0

/-- Two's complement: what numpy's int64 loops make of a result (for `calendar_helpers.py` lines 48-67). -/
def wrap64 (x : Int) : Int := (x + 9223372036854775808) % 18446744073709551616 - 9223372036854775808

/-- An integer rounded to the nearest float64, ties to even (for `trading_calendar.py` lines 274-283). -/
def roundFloat (x : Int) : Int :=
  if x.natAbs ≤ 9007199254740992 then x
  else
    let unit : Int := 2 ^ (x.natAbs.log2 - 52)
    let q := x / unit
    let r := x % unit
    (if 2 * r < unit ∨ (2 * r = unit ∧ q % 2 = 0) then q else q + 1) * unit

/-- The machine that wraps around silently, as numpy's array operations do (for `calendar_helpers.py` lines 48-67). -/
def wrapping : Machine where
  lit a := .ok (wrap64 a)
  add a b := .ok (wrap64 (a + b))
  sub a b := .ok (wrap64 (a - b))
  mul a b := .ok (wrap64 (a * b))
  fadd a b := .ok (roundFloat (a + b))

/-- The result, if it is an int64 (for `utils/pandas_utils.py` lines 37-48). -/
def checked64 (x : Int) : Py Int :=
  if -9223372036854775808 ≤ x ∧ x ≤ 9223372036854775807 then .ok x
  else .error (.valueError "Overflow in int64 addition")

/-- The machine that raises, as pandas' `checked_add_with_arr` and `Timestamp` arithmetic do
(`OverflowError` and `OutOfBoundsDatetime`, the latter a `ValueError`; here both `ValueError`) (for
`utils/pandas_utils.py` lines 37-48). -/
def checking : Machine where
  lit a := checked64 a
  add a b := checked64 (a + b)
  sub a b := checked64 (a - b)
  mul a b := checked64 (a * b)
  fadd a b := .ok (roundFloat (a + b))

end TC
