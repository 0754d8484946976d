import Verif.Model.Helpers

/-!
# Model of the query methods of `trading_calendar.py::TradingCalendar`

Timestamps are int64 nanoseconds since the epoch, as in the code (`dt.value`); session labels are
the nanosecond values of UTC midnights.  Arithmetic here is on unbounded integers; `Model/Machine`
models the int64 arithmetic of the code (C80).
-/

namespace TC

/-- The data every query reads: `self.schedule` (index and four columns, `trading_calendar.py` lines 155-164) and its
nanosecond copies `market_opens_nanos` ... `market_closes_nanos` (lines 172-182).  A missing break
is `NP_NAT`. -/
structure Cal where
  sessions : List Int
  opens : List Int
  breakStarts : List Int
  breakEnds : List Int
  closes : List Int
  deriving DecidableEq, Repr

/-- `DatetimeIndex.get_loc(label)` on a unique index: position or `KeyError` (`trading_calendar.py` lines 573, 602 and
726). -/
def getLoc (index : List Int) (label : Int) : Py Nat :=
  match index.findIdx? (· == label) with
  | some i => .ok i
  | none => .error .keyError

/-- `DatetimeIndex.slice_indexer(start, end)` on a monotonic index: both ends inclusive (`trading_calendar.py` lines
699-704). -/
def sliceIndexer (index : List Int) (start stop : Int) : Nat × Nat :=
  (searchLeft index start, searchRight index stop)

namespace Cal
variable (c : Cal)

/-- `self._trading_minutes_nanos` / `self.all_minutes` (`trading_calendar.py` lines 189-190, 932-945): the value of
`compute_all_minutes` for a calendar with at least one session (with none the constructor has
already raised; see `computeAllMinutes`). -/
def minutes : List Int := (minutePieces c.opens c.breakStarts c.breakEnds c.closes).flatten

/-- `is_session`, `trading_calendar.py` lines 381-395. -/
def isSession (dt : Int) : Bool := c.sessions.contains dt

/-- `is_open_on_minute`, `trading_calendar.py` lines 397-443. -/
def isOpenOnMinute (dt : Int) (ignoreBreaks : Bool := false) : Py Bool := do
  let openIdx : Int := searchLeft c.opens dt
  let closeIdx : Int := searchLeft c.closes dt
  if openIdx ≠ closeIdx then
    if ignoreBreaks then
      return true
    else
      let breakStart ← pyIndex c.breakStarts (openIdx - 1)
      let breakEnd ← pyIndex c.breakEnds (openIdx - 1)
      if breakStart ≤ dt ∧ dt < breakEnd then
        return false
      else
        return true
  else
    match pyIndex c.opens openIdx with
    | .ok o => return decide (dt = o)
    | .error .indexError => return false
    | .error e => .error e

/-- `next_open`, `trading_calendar.py` lines 445-463. -/
def nextOpen (dt : Int) : Py Int := do
  let idx ← nextDividerIdx c.opens dt
  pyIndex c.opens idx

/-- `next_close`, `trading_calendar.py` lines 465-480. -/
def nextClose (dt : Int) : Py Int := do
  let idx ← nextDividerIdx c.closes dt
  pyIndex c.closes idx

/-- `previous_open`, `trading_calendar.py` lines 482-497. -/
def previousOpen (dt : Int) : Py Int := do
  let idx ← previousDividerIdx c.opens dt
  pyIndex c.opens idx

/-- `previous_close`, `trading_calendar.py` lines 499-514. -/
def previousClose (dt : Int) : Py Int := do
  let idx ← previousDividerIdx c.closes dt
  pyIndex c.closes idx

/-- `next_minute`, `trading_calendar.py` lines 516-532. -/
def nextMinute (dt : Int) : Py Int := do
  let idx ← nextDividerIdx c.minutes dt
  pyIndex c.minutes idx

/-- `previous_minute`, `trading_calendar.py` lines 534-552. -/
def previousMinute (dt : Int) : Py Int := do
  let idx ← previousDividerIdx c.minutes dt
  pyIndex c.minutes idx

/-- `next_session_label`, `trading_calendar.py` lines 554-581. -/
def nextSessionLabel (label : Int) : Py Int := do
  let idx ← getLoc c.sessions label
  match pyIndex c.sessions ((idx : Int) + 1) with
  | .ok l => return l
  | .error .indexError =>
      if (idx : Int) = (c.sessions.length : Int) - 1 then
        .error (.valueError "There is no next session as this is the end of the exchange calendar.")
      else .error .indexError
  | .error e => .error e

/-- `previous_session_label`, `trading_calendar.py` lines 583-607. -/
def previousSessionLabel (label : Int) : Py Int := do
  let idx ← getLoc c.sessions label
  if idx = 0 then
    .error (.valueError
      "There is no previous session as this is the beginning of the exchange calendar.")
  else pyIndex c.sessions ((idx : Int) - 1)

/-- `self.schedule.at[label, column]`: `KeyError` for an unknown label (`trading_calendar.py` lines 624-625 and
869-900). -/
def cell (column : List Int) (label : Int) : Py Int := do
  let i ← getLoc c.sessions label
  pyIndex column i

/-- `minutes_in_range`, `trading_calendar.py` lines 770-800. -/
def minutesInRange (start stop : Int) : Py (List Int) := do
  let startIdx : Int := searchLeft c.minutes start
  let endIdx : Int := searchLeft c.minutes stop
  let atEnd ← pyIndex c.minutes endIdx
  let endIdx := if stop = atEnd then endIdx + 1 else endIdx
  return pySlice c.minutes startIdx endIdx

/-- `minutes_for_session`, `trading_calendar.py` lines 609-626. -/
def minutesForSession (label : Int) : Py (List Int) := do
  let o ← c.cell c.opens label
  let cl ← c.cell c.closes label
  c.minutesInRange o cl

/-- `execution_minutes_for_session`, `trading_calendar.py` lines 628-649; `fromOpen`/`fromClose` are the overridable
`execution_time_from_open` / `execution_time_from_close` (lines 926-930). -/
def executionMinutesForSession (fromOpen fromClose : Int → Int) (label : Int) : Py (List Int) := do
  let o ← c.cell c.opens label
  let cl ← c.cell c.closes label
  c.minutesInRange (fromOpen o) (fromClose cl)

/-- `sessions_in_range`, `trading_calendar.py` lines 681-704. -/
def sessionsInRange (start stop : Int) : List Int :=
  let (a, b) := sliceIndexer c.sessions start stop
  pySlice c.sessions a b

/-- The list comprehension `[minutes(session) for session in ...]`: stops at the first exception
(`trading_calendar.py` lines 651-659). -/
def collect (f : Int → Py (List Int)) : List Int → Py (List (List Int))
  | [] => .ok []
  | s :: rest => do
      let m ← f s
      let ms ← collect f rest
      return m :: ms

/-- `execution_minutes_for_sessions_in_range`, `trading_calendar.py` lines 651-659. -/
def executionMinutesForSessionsInRange (fromOpen fromClose : Int → Int) (start stop : Int) :
    Py (List Int) := do
  let pieces ← collect (c.executionMinutesForSession fromOpen fromClose)
    (c.sessionsInRange start stop)
  npConcatenate pieces

/-- `minutes_window`, `trading_calendar.py` lines 661-679. -/
def minutesWindow (start : Int) (count : Int) : Py (List Int) := do
  let startIdx : Int := searchLeft c.minutes start
  let m ← pyIndex c.minutes startIdx
  let startIdx := if m ≠ start then startIdx - 1 else startIdx
  if startIdx < 0 ∨ startIdx ≥ c.minutes.length then
    .error .keyError
  else
    let endIdx := startIdx + count
    if startIdx > endIdx then
      return pySlice c.minutes (endIdx + 1) (startIdx + 1)
    else
      return pySlice c.minutes startIdx endIdx

/-- `sessions_window`, `trading_calendar.py` lines 706-731. -/
def sessionsWindow (label : Int) (count : Int) : Py (List Int) := do
  let startIdx : Int ← (getLoc c.sessions label).map Int.ofNat
  let endIdx := startIdx + count
  let endIdx := max 0 endIdx
  return pySlice c.sessions (min startIdx endIdx) (max startIdx endIdx + 1)

/-- `session_distance`, `trading_calendar.py` lines 733-768. -/
def sessionDistance (start stop : Int) : Int :=
  let negate := decide (stop < start)
  let (start, stop) := if negate then (stop, start) else (start, stop)
  let startIdx : Int := searchLeft c.sessions start
  let endIdx : Int := searchRight c.sessions stop
  let out := endIdx - startIdx
  if negate then -out else out

/-- `session_open`, `trading_calendar.py` lines 868-872. -/
def sessionOpen (label : Int) : Py Int := c.cell c.opens label

/-- `session_close`, `trading_calendar.py` lines 896-900. -/
def sessionClose (label : Int) : Py Int := c.cell c.closes label

/-- `session_break_start`, `trading_calendar.py` lines 874-883: `NP_NAT` (`NaT`) if the session has no break. -/
def sessionBreakStart (label : Int) : Py Int := c.cell c.breakStarts label

/-- `session_break_end`, `trading_calendar.py` lines 885-894. -/
def sessionBreakEnd (label : Int) : Py Int := c.cell c.breakEnds label

/-- `open_and_close_for_session`, `trading_calendar.py` lines 828-846. -/
def openAndCloseForSession (label : Int) : Py (Int × Int) := do
  let o ← c.sessionOpen label
  let cl ← c.sessionClose label
  return (o, cl)

/-- `break_start_and_end_for_session`, `trading_calendar.py` lines 848-866. -/
def breakStartAndEndForSession (label : Int) : Py (Int × Int) := do
  let s ← c.sessionBreakStart label
  let e ← c.sessionBreakEnd label
  return (s, e)

/-- `minutes_for_sessions_in_range`, `trading_calendar.py` lines 802-826. -/
def minutesForSessionsInRange (start stop : Int) : Py (List Int) := do
  let (firstMinute, _) ← c.openAndCloseForSession start
  let (_, lastMinute) ← c.openAndCloseForSession stop
  c.minutesInRange firstMinute lastMinute

/-- `session_opens_in_range`, `trading_calendar.py` lines 902-906 (`schedule.loc[a:b, 'market_open']`). -/
def sessionOpensInRange (start stop : Int) : List Int :=
  let (a, b) := sliceIndexer c.sessions start stop
  pySlice c.opens a b

/-- `session_closes_in_range`, `trading_calendar.py` lines 908-912. -/
def sessionClosesInRange (start stop : Int) : List Int :=
  let (a, b) := sliceIndexer c.sessions start stop
  pySlice c.closes a b

/-- `first_session`, `trading_calendar.py` lines 918-920. -/
def firstSession : Py Int := pyIndex c.sessions 0

/-- `last_session`, `trading_calendar.py` lines 922-924. -/
def lastSession : Py Int := pyIndex c.sessions (-1)

/-- One entry of `_minutes_per_session`, `trading_calendar.py` lines 274-283: `(close - open - break) // 1min + 1`, the
break counting as 0 when either end is `NaT` (`fillna`). -/
def sessionMinuteCount (o bs be cl : Int) : Int :=
  let breakDiff := if bs = NP_NAT ∨ be = NP_NAT then 0 else be - bs
  ((cl - o) - breakDiff) / MINUTE + 1

/-- `_minutes_per_session`, `trading_calendar.py` lines 274-283. -/
def minutesPerSession : (opens breakStarts breakEnds closes : List Int) → List Int
  | o :: os, bs :: bss, be :: bes, cl :: cls =>
      sessionMinuteCount o bs be cl :: minutesPerSession os bss bes cls
  | _, _, _, _ => []

/-- `minutes_count_for_sessions_in_range`, `trading_calendar.py` lines 285-300. -/
def minutesCountForSessionsInRange (start stop : Int) : Int :=
  let (a, b) := sliceIndexer c.sessions start stop
  (pySlice (minutesPerSession c.opens c.breakStarts c.breakEnds c.closes) a b).sum

/-- `_minute_to_session_label_cache`, `trading_calendar.py` lines 166-170: `(None, None)` or the last `(dt, label)`. -/
abbrev LabelCache := Option (Int × Int)

/-- `minute_to_session_label`, `trading_calendar.py` lines 947-998, with the cache as explicit state. -/
def minuteToSessionLabel (cache : LabelCache) (dt : Int) (direction : String := "next") :
    LabelCache × Py Int :=
  let hit : Option Int :=
    if direction = "next" then
      match cache with
      | some (t, l) => if t = dt then some l else none
      | none => none
    else none
  match hit with
  | some l => (cache, .ok l)
  | none =>
    let idx : Int := searchLeft c.closes dt
    match pyIndex c.sessions idx with
    | .error e => (cache, .error e)
    | .ok currentOrNext =>
      if direction = "next" then
        (some (dt, currentOrNext), .ok currentOrNext)
      else if direction = "previous" then
        (cache, do
          let isOpen ← c.isOpenOnMinute dt true
          if !isOpen then pyIndex c.sessions (idx - 1) else return currentOrNext)
      else if direction = "none" then
        (cache, do
          let isOpen ← c.isOpenOnMinute dt
          if !isOpen then .error (.valueError "The given dt is not an exchange minute!")
          else return currentOrNext)
      else
        (cache, .error (.valueError "Invalid direction parameter"))

/-- A fresh calendar's `minute_to_session_label` (`trading_calendar.py` lines 947-998). -/
def sessionLabelFresh (dt : Int) (direction : String) : Py Int :=
  (c.minuteToSessionLabel none dt direction).2

/-- `index.is_monotonic_increasing` (weakly increasing) (`trading_calendar.py` line 1015). -/
def isMonotonicIncreasing : List Int → Bool
  | a :: b :: rest => decide (a ≤ b) && isMonotonicIncreasing (b :: rest)
  | _ => true

/-- `minute_index_to_session_labels`, `trading_calendar.py` lines 1000-1059.  On a mismatch the code looks up two
schedule
rows for the error message (`iloc[prev_day]`, `iloc[prev_day + 1]`), which can itself raise
`IndexError`. -/
def minuteIndexToSessionLabels (index : List Int) : Py (List Int) :=
  if !isMonotonicIncreasing index then
    .error (.valueError "Non-ordered index passed to minute_index_to_session_labels.")
  else
    let prevOpens : List Int := index.map (fun t => (searchRight c.opens t : Int) - 1)
    let nextCloses : List Int := index.map (fun t => (searchLeft c.closes t : Int))
    let mismatches := (prevOpens.zip nextCloses).filter (fun p => p.1 ≠ p.2)
    match mismatches with
    | (prevDay, _) :: _ => do
        let _ ← pyIndex c.opens prevDay
        let _ ← pyIndex c.opens (prevDay + 1)
        .error (.valueError "non-market minutes in minute_index_to_session_labels")
    | [] => prevOpens.foldr (fun i acc => do
        let l ← pyIndex c.sessions i
        let ls ← acc
        return l :: ls) (.ok [])

end Cal
end TC
