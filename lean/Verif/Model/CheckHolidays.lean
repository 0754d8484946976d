import Verif.Model.Build
import Verif.Model.Dispatcher

/-!
# Model of `etc/check_holidays.py`

The script that compares the calendars with a list of holidays from another source, the holiday key.
Timestamps are nanoseconds since 1970-01-01 UTC.
-/

namespace TC.CheckHolidays

/-- What the script prints: one constructor for each `click.echo` and `click.secho`
of `etc/check_holidays.py` lines 79-129.  Simplified: the wording and the colours are left to the constructors; dates are
day numbers. -/
inductive Line where
  /-- lines 90-99: number of holidays, class and name of the calendar, first and last day -/
  | checking (count : Nat) (cls name : String) (first last : Int)
  /-- lines 110-113: "These dates are holidays in the given key, but trading days in ..." -/
  | tradingDays (name : String)
  /-- lines 118-121: "These dates are trading days in the given key, but holidays in ..." -/
  | closedDays (name : String)
  /-- lines 115 and 123 -/
  | date (d : Int)
  /-- lines 126-129: "... calendar matches the holiday key." -/
  | matches (name : String)
  /-- lines 79-84: "No holidays found for ... in the holiday key." -/
  | noHolidays (name : String)
  /-- line 86: an empty line -/
  | blank
  deriving DecidableEq, Repr

/-- What the script depends on besides its arguments: what calling calendar classes does, the calendar
objects, and `type(cal).__name__` (`etc/check_holidays.py` lines 57 and 94). -/
structure World where
  env : FactoryEnv
  content : CalObj → Built
  className : CalObj → String

/-- The arguments of `check_holidays`, `etc/check_holidays.py` lines 37-45.  `rows` are the calendar column and the
holiday column
of the key.  Simplified: reading and parsing the file (`pd.read_csv`, lines 46-51) is not modelled, and
every row has a date. -/
structure Args where
  rows : List (String × Int)
  stripX : Bool
  answerName : Option String
  minDate : Int
  calendars : List String

/-- One step of `sorted` on strings (as used for `default_calendar_names`, `etc/check_holidays.py` line 53,
`calendar_utils.py` line 146). -/
def insertName (x : String) : List String → List String
  | [] => [x]
  | y :: ys => if x < y then x :: y :: ys else y :: insertName x ys

/-- `default_calendar_names`, `calendar_utils.py` line 146: `sorted(_default_calendar_factories.keys())`. -/
def defaultCalendarNames : List String := defaultFactoryNames.foldr insertName []

/-- The name looked up in the key, `etc/check_holidays.py` lines 59-65.  An empty `answer_key_calendar_name` counts
as none;
`lstrip('X')` removes all leading X. -/
def csvCode (a : Args) (name : String) : String :=
  match a.answerName with
  | some n => if n ≠ "" then n else fromName
  | none => fromName
where
  fromName := if a.stripX then String.ofList (name.toList.dropWhile (· == 'X')) else name

/-- `set(data[holiday_column][data[calendar_column] == csv_cal_code])`, `etc/check_holidays.py` lines 67-71. -/
def keyHolidays (a : Args) (name : String) : List Int :=
  ((a.rows.filter fun r => r.1 == csvCode a name).map Prod.snd).eraseDups

/-- `pd.date_range(start, end, freq='B')`, `etc/check_holidays.py` line 101: Monday to Friday. -/
def businessDays (start stop : Int) : List Int := dateRange (fun d => decide (weekday d < 5)) start stop

/-- `DatetimeIndex.difference` of a sorted index without duplicates, `etc/check_holidays.py` lines 103, 106 and 107. -/
def difference (xs ys : List Int) : List Int := xs.filter fun x => decide (x ∉ ys)

/-- `_check_range`, `etc/check_holidays.py` lines 89-129. -/
def checkRange (start stop : Int) (holidays : List Int) (cal : Cal) (cls name : String) : List Line :=
  let dates := businessDays start stop
  let expectedSessions := difference dates holidays
  let actualSessions := cal.sessionsInRange start stop
  let unexpectedSessions := difference actualSessions expectedSessions
  let unexpectedHolidays := difference expectedSessions actualSessions
  [.checking holidays.length cls name (start / DAY) (stop / DAY)]
  ++ (if unexpectedSessions.length ≠ 0 then
        .tradingDays name :: unexpectedSessions.map (fun s => .date (s / DAY)) else [])
  ++ (if unexpectedHolidays.length ≠ 0 then
        .closedDays name :: unexpectedHolidays.map (fun s => .date (s / DAY)) else [])
  ++ (if unexpectedSessions.length = 0 ∧ unexpectedHolidays.length = 0 then [.matches name] else [])

/-- What is printed for one calendar, `etc/check_holidays.py` lines 67-86.  `first_session` and `last_session` raise
for a calendar
without sessions. -/
def checkOne (a : Args) (cal : Cal) (cls name : String) : List Line × Option PyErr :=
  match keyHolidays a name with
  | [] => ([.noHolidays name, .blank], none)
  | h :: hs =>
    match cal.firstSession, cal.lastSession with
    | .ok first, .ok last =>
      let start := max (max first (hs.foldl min h)) a.minDate
      let stop := min last (hs.foldl max h)
      (checkRange start stop (h :: hs) cal cls name ++ [.blank], none)
    | .error e, _ => ([], some e)
    | _, .error e => ([], some e)

/-- The loop of `check_holidays`, `etc/check_holidays.py` lines 53-86, over the names still to come: the lines
printed, and the
exception that ends it, if any. -/
def loop (w : World) (a : Args) (s : Registry) : List String → List Line × Option PyErr
  | [] => ([], none)
  | name :: names =>
    if a.calendars ≠ [] ∧ name ∉ a.calendars then loop w a s names
    else
      let (s, r) := s.getCalendar w.env name
      match r with
      | .error e => ([], some e)
      | .ok c =>
        match checkOne a (w.content c).cal (w.className c) name with
        | (out, some e) => (out, some e)
        | (out, none) => let (rest, e) := loop w a s names; (out ++ rest, e)

/-- `check_holidays`, `etc/check_holidays.py` lines 37-86. -/
def checkHolidays (w : World) (a : Args) (s : Registry) : List Line × Option PyErr :=
  loop w a s defaultCalendarNames

end TC.CheckHolidays
