# Formal model of trading_calendars: design

Source: `/repo` (quantopian/trading_calendars, pinned).  Lean 4.33, project in `lean/`; no Mathlib import is
needed.  `properties.jsonl` states the properties in English, `MANIFEST.json` names the theorems, `seeded/`
records the mutation tests.

## Shape of the development

Every layer has up to four modules: `Model/X` (the code, function by function, each definition citing file
and lines), `Spec/X` (vocabulary in which the properties are stated, written without the model), `Lemmas/X`
and `Props/X` (the theorems `cNN_…`, with examples that meet their hypotheses).

| layer | modules | models |
|---|---|---|
| Python/numpy primitives | `Py`, `Lemmas/Py` | exceptions as values (`Except PyErr`), indexing and slicing with negative indices, `np.searchsorted` as the actual binary search |
| registry | `Dispatcher` | `calendar_utils.py`: three dicts, all public calls, factories that may fail, the default tables |
| query layer | `Model/Helpers`, `Model/Calendar`, `Spec/Calendar`, `Spec/Abstraction`, `Lemmas/{Calendar,Index,Minutes,Ranges,Ordered}`, `Props/{Queries,Ranges}` | `calendar_helpers.py` and every query method of `TradingCalendar`, on the int64-nanosecond columns the code uses, with the `NP_NAT` sentinel |
| time zones | `TimeZone`, `Model/Zones`, `Lemmas/{ZoneCheck,ZonesClear}` | `tz_localize` of a wall-clock time under an arbitrary finite transition table; the tables of the zones used by the exchanges |
| construction | `Build`, `Lemmas/{BuildRegular,BuildRows,BuildTimes,BuildSucceeds}`, `Model/SimpleCalendars` | `days_at_time`, `selection`, `_group_times`, `scheduled_special_times`, `_special_dates`, `_overwrite_special_dates`, `_remove_breaks_for_special_dates`, `_check_breaks_match`, `__init__`; 24/7, 24/5 |
| precomputed calendars | `Construct` | `precomputed_trading_calendar.py` and the lunisolar check of XHKG |
| civil calendar | `Civil` | day numbers, `datetime`'s year/month/day arithmetic, dateutil's Easter algorithms |
| holiday rules | `Holiday`, `Lemmas/{HolidayCheck,HolidayCache,Named,RuleCheck}` | pandas `Holiday`, `DateOffset`s and observances used by the repository, `AbstractHolidayCalendar` with its cache |
| Hebrew calendar | `Hebrew`, `Model/Exchanges/Xtae` | pyluach's arithmetic and `tase_holidays.py` |
| exchanges | `Exchange`, `Model/Exchanges/*` (one per module of the repository), `Model/UsFutures`, `Lemmas/ExchangeCheck`, `Props/Exchanges{1,2,3,4}` | all 50 exchange modules, `us_futures_calendar.py`, `us_holidays.py`, `common_holidays.py` and the holiday tables |
| rule books | `Spec/RuleBooks`, `Lemmas/RuleBooks`, `Props/{RuleBooks,UsHolidays,UsExchanges}` | nothing new: compares exchanges with rule books stated by dates |
| utilities | `Lazyval`, `Tcal`, `TcalMain` | `utils/memoize.py`; rendering, arguments and `main` of `tcal.py` |

`tools/` holds the generators used to translate exchange modules (`gen_exchanges.py`, `hand.py`), zone tables
(`gen_zones.py`) and the repetitive C54 theorems (`gen_props.py`).  Their output is committed and is what is
proved about; the generators are not trusted beyond the reading of the source they record in comments.

A calendar in the query theorems is `Cal.ofSessions ss` for a session list satisfying `Regular` (labels
increasing, open < close, close < next open, break inside, all values above the NaT sentinel) and, for
minute-level statements, `WholeMinutes`.  C38 proves that the constructor only produces such calendars, and
C54 that the constructor succeeds for the shipped exchanges, so the hypotheses are met by real calendars.

## Per property

* C01-C11 registry.  State machine `step : State → Op → State × Result`; induction over histories for
  C02, C03, C11.  `resolve_alias` is modelled with its `seen` list; its termination is proved (a decreasing
  measure: alias keys not yet seen), not assumed by fuel.
* C12-C14 searchsorted is characterised once (`i < k ↔ xs[i] < v`), then next/previous queries are shown to
  meet `IsNext`/`IsPrev`.  Error cases are equivalences.
* C15 induction over rows of `compute_all_minutes`.
* C16-C19 case analysis of the two searchsorted indices on regular rows.  Deviations (break-start minute,
  wrap-around of 'previous', IndexError after the end) are separate theorems with the exact behaviour.
* C20 simulation between the stateful call with cache and the pure function.
* C21 pointwise.
* C22-C25, C29 slices of a sorted list are filters.
* C26-C28, C30-C32 list index arithmetic on the sorted session list.
* C33 date_range with CustomBusinessDay is modelled as pandas' stepping generator; the specification is
  "the days of the range that are trading days".
* C34-C38, C41 model of `__init__`, with time zones as arbitrary finite transition tables.
* C39 instances of C38 + C16 for the two UTC calendars.
* C40 `checkYears` is an equivalence: construction succeeds iff the base constructor does and every year of
  the range is recorded; the classes' defaults are within their records.
* C42 state machine over (instance → cached value); getters may read any attribute.
* C43-C45, C49, C50, C53 pandas rules over day numbers; all years by arithmetic; for Easter by the
  ecclesiastical full moon.  A decidable check (`RuleCheck`) with a soundness proof covers every rule of the
  repository, so that "for every year" is not an enumeration.
* C46-C48, C55 rule books: every rule of the exchange is put in a normal form "year y keeps it on day d",
  then compared with the documented list.
* C51, C52 string layout as lists of characters.
* C54 a decidable check of the class data with a soundness theorem `constructible_of`: for every range and
  every zone that fits, and for the class's own zone, construction succeeds with exactly the documented
  sessions, times and early closes.
* C56, C57 pyluach's `_elapsed_days` is shown to be division by the lunation; the New Year's weekdays and year
  lengths by case analysis on the weekday of the molad; Gregorian years by linear bounds on the drift.
* C58 one lemma per default class from its C54 theorem (C40 for recorded holidays, C39 for 24/7 and 24/5); an
  invariant of the registry (default names keep factory, alias and content) over histories of calls.
* C59 the holiday lists are written in a small language (`Spec/Books.lean`: day of the year, first and last
  year, makeup table).  Rules and lines are brought into a common form (shifts from the first of a month by
  its weekday, or from Easter, with intervals of years) and compared for all years by a decidable check with
  a soundness proof; feasts of lunar calendars are tables of dates with days off by weekday.
* C60 the same comparison for the rules of `special_closes`, without the bound 1970; the dates of
  `special_closes_adhoc` against eves of feasts.
* C61 timetables (`Spec/Hours.lean`) with C54 and C60: the table in effect is evaluated, for XSGO by induction
  over the years of its generated table.
* C62 arguments as strings; integer literals by an inductive definition, `int` proved against it by the
  functional induction of its scanner; the rest by cases with C51 and C58.
* C63 clock laws by weekday and date (`Spec/Clocks.lean`), independent of the transition tables; each table is
  checked against its law segment by segment (between two changes no transition leads to another offset), and
  the check is proved to imply the claim for all days and all times from 8:00 to 21:00; combined with C61.
* C64 composes C12, C13, C16, C18, C31, C54 and C61: a reading of the clock that happens once divides all earlier
  readings from all later ones (`only_le`), so order of instants becomes order of readings, also around clock
  changes at night.
* C65 the month arithmetic of `etc/lunisolar`, the script that computed the lunar tables: `local_cmp`,
  `minutes_at_phase`, `utc_to_chinese_date`, `chinese_month_start`, `calculate_new_year` and
  `nth_day_of_nth_chinese_month`, over arbitrary arrays of new moons, solstices and zhongqi (the ephemeris and
  floating point stay parameters).  The loop is proved, by induction with an invariant on the position among the
  solstice months, to drop exactly the first month without zhongqi of each stretch between solstice months that
  is not 12 months long.
* C66 two builds of one configuration: rows of one session are equal if the same special times apply (C34-C36,
  times of day and instants being unique), which holds five days inside both ranges because instants lie within
  three days of their session; then all queries agree because they are determined by the sessions that have to
  do with the window (C12-C31).  The 53 classes meet the hypotheses by the checks of C54.
* C67 `check_holidays` and `_check_range` from the parsed rows on, with the registry; the days listed are
  characterised by C26 (sessions in a range), C33 (first and last session) and the business days of a range; for
  the default calendars by C58, by induction over the names.
* C69 the dispatcher's functions as sequences of single dictionary operations (`Model/Threads.lean`), any number
  of calls interleaved; refinement to the one-step model for a call alone; acyclicity by the invariant that for
  each name that leads into a cycle there is a call that has set an alias on the way and is still checking it, or
  about to remove it.
* C70 `minute_to_session_label` and `lazyval.__get__` as sequences of reads and writes of their caches
  (`Model/CacheThreads.lean`), any number of calls interleaved; invariants over the reachable states.
* C68 `_version.py` whole, from the output of the git commands on; the regular expression is a search from the
  longest first group down, and the proof that it finds the tag is that the distance and the commit name have no
  hyphen; paths are lists of names; the choice among tags is the head of an insertion sort.
* C71 `chinese-cal` of `etc/lunisolar` (`Model/LunisolarCal`): month and year as text; the grid is stated as in C51
  (each day in its columns, all else blank), months by the numbering of C65. `c71_month`, `c71_leap`, `c71_year` and
  the errors.
* C72 the step-by-step model of C69 and C70, with one call at a time that ends after any number of its steps
  (`Spec/Interrupted`, `Props/Interrupted`, `Props/InterruptedCaches`); an invariant says for each place of a call
  what it has done by then. `deregister_calendar` removes the difference between the states before and after an
  interruption, so calls that begin with it can be repeated.
* C73 `errors.py` (`Model/Errors`): `str.format` as a scan over the message, `repr` character by character. Stated by
  pieces (`Says`) and by a relation between string literals and the strings they denote, which is shown to be
  unambiguous even in a longer text. Characters are those of Lean (no lone surrogates); what is printable outside
  ASCII is arbitrary.
* C74 dictionaries as objects (`Model/Dispatchers`): a heap of numbered dictionaries, dispatchers as three references.
  Invariant: no one else has a dispatcher's factories and aliases. The benchmark by an invariant of its loop.
* C75 `etc/make_trading_calendar_test_csv.py` (`Model/TestCsv`): the script with `to_csv` (chunks of 50000 rows, the
  form of the times chosen for each chunk) and `normpath`.  Stated by digits and their values, dates by `DayNumber`,
  times by hours, minutes, seconds; that the file determines the sessions is proved from that alone.  For the default
  classes by C58 and `steady_default` of C66.
* C76 the files with precomputed longitudes (`Model/Precomputed`): a directory is a list of names and contents, a run
  a fold over its blocks of 525600 minutes, an interrupted run a prefix of it with part of a file.  `el` is any
  function from minutes to longitudes.  Proved by an invariant of the directory: the files of a run are pieces that
  follow each other; sorting by the first minute, which the name tells, restores their order.
* C77 the commands of `etc/lunisolar` that print dates (`Model/LunisolarDates`): C76 loads what the runs saved, C65 and
  C71 compute from it; what is done with floating point numbers is arbitrary (`Sky`).  Stated by the minutes at which
  sun and moon are nearest, dates in China by `DayNumber`, lines by digits.
* C78 `utc_to_jd_tt` with its table (`Model/TerrestrialTime`) and `smooth`, `smoothed_local_cmp` (`Model/Smoothing`) in
  exact arithmetic (ten-thousandths of a second; sums instead of means).  The index by `searchRight`; that the table is
  sorted and never steps back by a second is checked by the kernel, all else holds for every time.
- C79 (time of day in start and end): `dateRange` models pandas' `generate_range` with its `if start ... elif end`
  roll, for starts and ends of any time of day (`dateRange_any`).  `TablesFit` is `WellFormed` without the midnight;
  `schedule_rows_any`, `schedule_regular_any` and `build_special_labels_any` need no midnight.  From them:
  the labels exactly (`c79_labels`), order (`c79_regular`), lateness of every time (`c79_late`), refusal
  when a special time is in range (`c79_refused`), independence of the end's time of day (`c79_end`), and the same
  for the library's classes (`c79_default*`).
- C80 (nothing overflows): `Model/Machine` repeats `days_at_time`, `_group_times`, the special dates, `compute_all_minutes`,
  `__init__` and the counting of minutes with every sum, difference and product going through a `Machine`.  All that
  `Spec.Exact` says of it is that an operation is exact when operands and result fit (int64; 2^53 for float64), so the
  theorems hold for wrapping and raising machines alike (`wrapping`, `checking`, both shown `Exact`).  Proof: every
  intermediate value of every operation is bounded from the four days' distance, the table's times and the zone's
  offsets; the counts' total by telescoping over the sessions.  Examples show that near the end the machines do differ.
  `Model/MachineRules` adds the `Timestamp` behind every date of a holiday rule, from one year before the window to one
  year after it; `c80_library` says for each class exactly in which years it can start and end (`Spec/MachineRules`), that
  there nothing overflows, and that elsewhere pandas refuses.  Proof: how far each offset and observance moves a
  date (`reach`, `obsReach`), checked against the bounds for the rules of all classes.
- C81 (changes to a class have local effects): two configurations are compared date by date (`Spec/Edits`: `SameAt`, the
  changes `withHoliday`, `withEarlyClose`, `withHours`, `withDays`).  `c81_row` and `c81_local` follow from the description of
  a row by C34 and from the agreement of calendars in C66.  For holidays and early closes the existence of the edited calendar is
  proved from that of the old one, not assumed; `c81_holiday_refused` is the case with a special time on the day.
- C82 (how answers combine): no new model; the laws are stated on the results of the calls alone and derived from what C12-C29
  say about each call.
- C83 (the window of holiday calendars): `Model/Window` has a class under a release with another window.  The days of the
  range are the same for both windows, hence `date_range` yields the same list (by what C33 proves about it) and
  construction goes on in the same way.
- C84 (closures and sessions per year): `Spec/Gaps` says what a longest closure and a yearly range are and has a table of them
  for the default calendars.  `Lemmas/DayBits` represents the closed days of an exchange as the bits of one number and
  proves that runs of bits and counts of zeros answer both questions for all days and for the years of the table; days
  outside the window of holidays and ad hoc closures are covered by the weekmask alone.  The kernel evaluates the check on
  the rules of each exchange (`Props/Gaps1` to `Gaps4`, written by `tools/gen_gaps.py`; XTAE by a table of Hebrew New
  Years, proved equal to the model's, in `Props/GapsTelAviv`).  `Props/Gaps` draws the conclusions for `next_session_label`,
  `previous_session_label` and `sessions_in_range` of every calendar constructed.
- C85 (markets with the same days): `Spec/Agree` has the tables of names and last days.  `Lemmas/Agree` compares the numbers
  of `Lemmas/DayBits` of two exchanges: shifted to the last difference, their exclusive or is one.  `Props/Agree` evaluates
  this in the kernel for the pairs and concludes for the sessions of any two calendars constructed for the same range, and
  that the dates are sharp (`c85_differ`).
- C86 (markets open at the same time): `Spec/Together` has `OpenWithin` and the tables.  From the hours in UTC (C63), the
  days (C85) and the holiday lists (C55, C59): `within_of` compares two exchanges day by day with the clock of each; early closes of
  the larger market must be matched by earlier ones, or by holidays, of the smaller one.  For Euronext (`c86_euronext`) the
  sessions of each market are brought to one description (`Alike`), Lisbon's by moving clock and hours by an hour.
- C87 (order of registrations): `AlikeTables` says that two registries record the same for every name. One lemma shows that
  every public call keeps alike registries alike and answers the same (the alias loop by induction on its own recursion).
  Calls that write one name are described by the entry they record, so two of them commute when both orders succeed; that
  the other order of unforced registrations succeeds follows because a part of an acyclic table is acyclic. Permutations by
  induction. The file shows a pair of calls of which one order is refused.
- C88 (lengths of sessions): `elapsed` shows from C61's timetable (each local time is read by exactly one instant) that as
  much time passes between two readings as the clock says, if every reading between them happens once. For markets that open
  and close on one date a check of the zone's table shows that no clock changes in between; for those that open the evening
  before, that clocks only change at weekends, with the exceptions listed. The lengths of all combinations of times in the
  timetable are then computed. The count of a range is a sum of lengths (C25).
- C89 (factories that call the registry): `Model/Reentrant` takes a factory as a tree of public calls, each continued by what
  it returned or raised, and `get_calendar` as a recursion with a limit. Induction on the limit, inside it on the tree: what
  one call may change (`Later`) and what it returns. Without such factories it is the model of C01 to C11
  (`c89_conservative`). That the limit does not show, and that circles always reach it, are separate inductions.
- **C90** (`Spec/Moons.lean`, `Props/Moons.lean`): tables of the model against counted mean moons (29.530589 days from a
  fixed one), with the tolerance each table needs; a leap month is an existential.  Every entry is evaluated in the
  kernel, the statements range over years and entries.  `c90_2034` is the contradiction for any leap month; its
  consequences for sessions use C59's day test over all constructed calendars; `c90_not_the_script`
  (`Props/MoonsScript.lean`) follows from C65 for any data with moons at least 29 days apart.  Not stated: that the dates are right to
  the day (this would need positions of sun and moon).
- **C91** (`Spec/Recorded.lean`, `Props/Recorded.lean`): `KeepsBook` and `KeepsFeast` say that every calendar is closed on
  the days of a holiday list (the vocabulary of C59) or of a table of festivals, and open on the listed exceptions; `Needed`
  says that no exception is idle.  Days of a year are computed from the shape of a line, the recorded closures are
  looked up in the kernel, `sessions_iff` carries the answer to all calendars.
- **C92** (`Spec/Horizon.lean`, `Props/Horizon.lean`): `EndsIn` = `OnlyAfter` (after the last year the sessions follow from
  the yearly list and the remaining feasts alone) and `RecordedIn` (the last year has a closure that they do not explain,
  so no smaller year would do).  From C59 and bounds on the tables; that a day is no holiday of a book in any year is
  decided from the shapes of its lines (`noHoliday_of`).
- **C93** (dates): `LocalDates`, `UtcDates`, `OpensDayBefore` (`Spec/Dates.lean`) over the built calendar's answers. From C64
  (answers by the clock): an open instant lies in the hours of one day, all opening and closing times lie within one date
  of clocks set fast by a constant (checked on the timetable), and all offsets of the zone from the first day on lie
  between two bounds (checked on the transitions, `offset_bounds`). The sharp cases come from C61 (the instants of the
  openings). An example per market shows an open instant. 24/5 and 24/7: `Props/DatesUtc.lean`, from `utc_build` and C18.
- **C94** (months): `MonthTradingDays`, `MonthlyRange` and `monthTable` (`Spec/Months.lean`). As C84: the closed days of a
  market are the bits of a number (`closedBits_testBit`); `monthWords` cuts it into the months of the years in question,
  `mem_monthWords` says by induction that these are exactly their days, and the kernel evaluates `monthsB`, which
  `months_of` proves sound. XTAE by the table of Hebrew New Years of C84. `c94_month` carries it to `sessionsInRange` of a
  built calendar.
- **C95** (distributions): `Model/Versioneer.lean` models `get_versions` of `versioneer.py` with the settings of `setup.cfg`,
  `write_to_version_file`, `versions_from_file` (the searches, `json.dumps` and `json.loads` for dictionaries of strings,
  truth values and `None`), `git_get_keywords`, and the evaluation of the literal in the written file. Each character is
  read back from what `json.dumps` writes for it (`readBack_escape`, with pairs of surrogates), so each string, each
  dictionary and, by the searches, the file (`c95_file`); no line of the written file looks like a keyword
  (`getKeywords_shortFile`), so `setup.py` takes it (`c95_tree`), and by induction over the chain of builds (`MadeFrom`)
  nothing is lost (`c95_made`). The literal of Python undoes one level of escapes: for plain texts only the `\uXXXX` of
  `json.dumps`, so `json.loads` still reads the rest (`import_shortFile`).  `c95_checkout` joins this with C68;
  `c95_keywords`, `c95_directory` and `c95_archive` say what happens with keywords and without git.
- **C96** (weeks): `WeekTradingDays`, `WeekWithin`, `WeeklyRange` and `weeklyTable` (`Spec/Weeks.lean`). As C94, from the closed
  days as bits (`Lemmas/Weeks.lean`): words of seven bits for the counts; for the weeks without sessions the runs of seven
  set bits that begin with a Monday are compared with the bits of the listed Mondays, so that the list is exact.  The
  kernel evaluates both checks of an exchange together (`months_weeks_of`, `Props/Months1-8.lean`).
- C97 (installing versioneer again): `Model/VersioneerSetup` is `do_setup` on the texts of four files, with `str.split`, `in` and
  the reading of lines.  Spec: what a line and a word of a text are, by the text around them.  `c97_again` from
  `linesOf_ended` (a text of complete lines has one line more after appending one), `c97_settles` since a run that
  appends leaves complete lines, `c97_grows` since no word has white space.
- **C98** (early closes and minutes of a year): `HasEarlyClose`, `ClassEarly`, `MinutesRange`, `earlyTable` and `minutesTable`
  (`Spec/EarlyYear.lean`). The early closes of an exchange are the closures of an exchange that is open on all other days
  (`Exchange.onlyEarly`), so the bit masks of C84 count them (`early_range`, `minutes_range`), by the kernel per exchange
  (`Props/EarlyYear1` to `4`). `early_year` carries the numbers over to `early_closes` of a constructed calendar: a day more
  before the year and two after it are enough: `_special_dates` keeps the special closes whose time in UTC lies between
  start and end. `c98_minutes`
  adds the session lengths of C88. Early closes in New York
  were at 14:00 until 1992 and are at 13:00 since (`c98_xnys_time`), so it is treated by itself (`Props/EarlyYearNewYork`).
  `c98_others` and `c98_no_late_opens`: no other early closes, no late opens. Missing for XHKG and XSGO: minutes, as they have several lengths.
- **C99** (ends of the range): `last_lost`: a special close counts if its instant is not after midnight UTC of the last day
  (C41); by the zone table no clock is so far ahead that the time of an early close comes before that midnight
  (`closesLate`, by the kernel). `c99_exact`: all other early closes are kept, as each is on the same
  day in UTC (`closesSameDay`, not so for XNZE). `c99_depends` compares two ranges with the lengths of C88.
- **C100** (`scan_setup_py`): `Model/VersioneerScan` on top of C97; `Occurs` (`Spec/VersioneerScan`) speaks about the whole
  text, `occurs_lines` shows that a text without line feed occurs in it exactly if it occurs in a line. `c100_mended` uses
  C97 for the rerun.
- **C101** (`Model/VersioneerConfig.lean`, `Spec/VersioneerConfig.lean`, `Props/VersioneerConfig.lean`): the parser of
  `setup.cfg` as a state machine over lines (sections, options, continued values, comments, duplicates), then
  `get_config_from_root` and `do_setup`. That the sample adds an empty section after any readable text: `sample_state`; that
  options belong to sections that were read: the invariant `Tidy`, by induction over the lines. Reading back: one step of
  the parser per line of the layout (`cfgLine_option`); what follows the section is read as without it (the simulation
  `Beside`, by induction over the lines). Not modelled: the parser of Python 2, interpolation (an error
  here), a version file that cannot be written.

## Findings (each is a theorem or an example beside one)

* `minute_to_session_label(t, 'previous')` before the first open answers with the *last* session (C19).
* The minute that starts a break is in `all_minutes` but `is_open_on_minute` denies it (C17);
  `minutes_count_for_sessions_in_range` counts one minute too few per session with a break (C25).
* Negative `minutes_window`s longer than the history wrap around (C29).
* A refused forced alias registration loses the old entry (C10); dangling aliases make `has_calendar` and
  `get_calendar` disagree (C08).
* No regular holidays before 1970 and after 2200, because `AbstractHolidayCalendar` clips there (C50).
* A special close on the (midnight) end date itself is dropped (C35); for XNZE the early close at 12:45
  local time is before midnight UTC, so an early close on the start date is dropped too.
* XNYS cannot be constructed over 1945-12-24 or 1956-12-24 (both closure and early close); XKLS and XIST have
  such days in 2029 and later, so ranges reaching them fail (C46, C54); as the
  default range ends a year after the import, `get_calendar('XKLS')` fails from 2028-02-14 on, `'XIST'` from
  2028-04-23 on and `'XHKG'` from 2049 on (C58).
* No Memorial Day in 1970 (C44); Ascension day missing for XIDX in 2003/2004.
* XCBF has sessions `us_futures` does not (C47).
* A month starting on a Sunday has an empty first row in `tcal` (C51).
* `tcal` shows days outside the calendar's default range in brackets, as if they were holidays, without a
  warning; its usage offers a DAY argument that it rejects (C62).
* After 2037 pytz knows no clock changes: northern exchanges have standard time all year, Sydney, Wellington
  and Santiago summer time all year (C63).  The code gives Bogota the zone of New York, so its
  hours move with the summer time of the United States, which Colombia does not have (`c63_xbog`).
* `memorial_day` tests for Saturday, which never happens, where the law moves Sundays (C57); wrong in 2024.
* The docstring of `_hebrew_year` (January 1 in Tevet or Shevat) fails in 1968 (C56); harmless.
* The holidays of Orthodox Easter end with 2020 in ASEX, so Orthodox Good Friday is a session from 2021 on
  (C59).
* XHKG moves the day after the mid-autumn festival from October 1 to October 2 also before 1997, when October
  1 was no holiday: in 1974 and 1993 October 1 is a session and October 2 is not (C59).
* XASX has no Australia day in 1993; XBUE's class comment differs from its rules (the day of cultural
  diversity is not always the second Monday; sovereignty day only 2010-2014 and from 2017); comments of XJSE
  and XLON misname days (C59).
* Found while writing the lists: the model's XBKK applied the makeup rules of New Year also in the years the
  source excepts (2003 and 2006); corrected.
* Hours that differ from the class comments: XSWX opens at 9:00, its comment says 8:00; XKAR has 9:32 to 15:30
  on all days, its comment has other hours on Fridays; XTKS has no break, its comment has a lunch break; the
  closing time of XSGO follows the season only from 1980 to 2049 (C61).
* XHKG: `boxing_day_obs` has a branch that is never taken; a lunisolar table is updated in place at
  construction (idempotent, hence harmless).
* `etc/lunisolar`: for a solstice in the last month of the data `argmax - 1` is -1, so the length of its sui is
  never 12 and a fake leap month in it is dropped (example in `Props/Lunisolar.lean`); the docstring of
  `local_cmp` has the arguments of the left comparison exchanged (C65).
* `etc/check_holidays.py`: sessions at weekends (XTAE, 24/7) are always reported as holidays of the key; a key
  that ends before the minimum date "matches"; a minimum date with a time of day makes every session appear
  as a difference; one calendar that cannot be constructed ends the check of all later ones (C67).
* The registry has no lock: two threads may get two different calendar objects for one name, two registrations
  without force may both succeed, `get_calendar` may raise `KeyError` (C69).
* `minute_to_session_label` reads its cache twice, `cache[0] == dt` and then `cache[1]`: another thread that
  replaces the cache in between makes the call return the label of the other thread's minute (C70,
  `c70_wrong_label`).
* `_version.py` looks for a directory `calendars-VERSION` while `setup.cfg` says `trading_calendars-`, so an
  unpacked archive named after the project has the version `0+unknown` (C68, example); of several tags the
  alphabetically first counts, 1.10.0 before 1.9.0.
* An interrupted forced registration can leave the name unknown; an interrupted registration of an alias that would
  be refused leaves its cycle in the table (C72, `c72_lost`, `c72_cycle_left`).
* Dispatchers made from the same dictionary of calendars share it, though factories and aliases are copied: clearing
  one clears the calendars of the other (C74, `c74_shared_clear`).
* `etc/make_trading_calendar_test_csv.py`: `cal_name.upper()` makes the calendar `us_futures` unreachable, and `24/5`
  and `24/7` are written into a directory `24` (C75, `c75_us_futures`, example beside `plainCases`).
* `etc/lunisolar`: files of earlier runs are neither removed nor recognised.  A later `--stop` makes minutes load twice
  (`c76_extended`), a second run interrupted in the first file shifts later longitudes (`c76_misplaced`), a single
  longitude is broadcast (`c76_broadcast`), `.DS_Store` is taken for a block (`c76_foreign`); the lengths of longitudes
  and minutes are not compared (C76).
* `etc/lunisolar`: `--weekday` raises `AttributeError` with the pandas version the project fixes (`c77_weekday`);
  `utc_to_jd_tt` adds the correction of the row after the one in force, 11.3 seconds too much from 1700 to 1973
  (`c78_early`); the length `smooth` documents is not the one it returns (`c78_smooth`).
- C79: a start with a time of day is accepted and shifts every session by it: the 24/5 calendar from 10:30 is open
  from 10:30 to 10:29 of the next day, New York's would open at 20:01 local time.  For a class with early closes it
  is refused, with a message about special dates that are not trading days, as soon as the range contains one.  With
  a start on a trading day, an end not on one, and an end earlier in the day, the last session is lost.
* With a pandas before 1.0 regular holidays end with 2030, and before 1970 there are none in any release (C83, C50).
* The session of 1942-02-09 is an hour short in us_futures, CMES and IEPA calendars that reach back so far (C88); XTAE has
  sessions of 436 minutes (its first minute is 10:00, not 10:01) and XKAR of 358 (9:33 to 15:30).
* A factory that calls `get_calendar` for its own name and then returns something else hands out two objects for one name; a
  factory that forces an alias under its own name leaves a name that is a calendar and an alias at once (C89).
* `lunisolar_holidays.py`: the entries of 2034 for Buddha's birthday, dragon boat, mid-autumn and double ninth festival
  are a lunar month early (they count from 2034-01-20, not from the new year 2034-02-19 of the same file).  The script
  `etc/lunisolar` as it is counts from the new year it prints, so the tables are not its output
  (`c90_not_the_script`).  XHKG and XTAI
  are affected (`c90_2034`, `c90_hong_kong`, `c90_taipei`).
* The equinoxes of XTKS end with 2021: it is open on them from 2022 on (`c90_tokyo`).  XIDX lists 2012-05-18, a common
  leave, as the night journey (`c90_isra`); XKLS lacks the prophet's birthday of 2015-01-03, a Saturday.
* Recorded closures that look like slips (`c91_*`): XSES has 1991-01-15 and 1994-01-10 where the Chinese new year was in
  February, and lacks Good Friday 1987; XKRX has 1991-01-02 but not 1991-01-01, and lacks 1989-10-03, 1993-12-31 and the
  lunar new year 1996-02-19/20; XBOM has four closures in 1998, without Republic day, Good Friday, May 1 and October 2;
  XSHG lacks the mid-autumn festival 2025-10-06.  Calendars are open on these weekdays.
* The dates of Islamic, Hindu and Buddhist holidays of XIDX, XKAR, XPHS, XBKK and, in part, XKLS end with 2019 or 2020.
  Later calendars can be constructed and are open on these days (`c92_*`); only the four classes with recorded closures
  alone refuse (C40).
- The UTC date of an open minute is not its session label for XASX (in summer), XNZE, CMES and us_futures (always at the
  opening), nor for XKRX and XTKS when their clocks were put forward (shown for 1988-06-01 and 1950-06-01) (C93).
- ASEX has no session in July 2015 (`c94_asex_july`), XSHG has seven in February 1999 (`c94_xshg_february`): a month
  without sessions exists among the default calendars.
- `.gitattributes` says `calendars/_version.py export-subst`, but the file is `trading_calendars/_version.py`: `git archive`
  does not expand the keywords, so the code that reads them never applies (`archivedKeywords`, `c95_directory`).  In
  `trading_calendars-1.11.0`, unpacked without git, `setup.py` says 1.11.0 and the package 0+unknown, since `_version.py`
  looks for `calendars-` (`c95_archive`).
- A git tag with a quotation mark makes distributions whose `_version.py` is read correctly by `setup.py` but cannot be
  imported, because `json.dumps` is put into a literal that is not raw (`c95_quotation_mark`).
- There are weeks without a session for 11 of the default calendars; `weeklyTable` lists all 92 of them, e.g. XTKS 29
  April 2019 and, in the future, XIST 23 April 2029 and XTAI from 27 January 2025 to 20 January 2042 (four) (C96).
* The years in which a calendar can start or end are narrower than what a timestamp can express (1677-09-22 to 2262-04-11),
  since rules of special closes are expanded one year further on both sides: 21 classes refuse any end in 2261 or
  later with `OutOfBoundsDatetime`, XOSL in 2262; CMES, IEPA, XSGO and XSTO refuse a start before 1679, nine others before
  1678 (`c80_library`).
- `versioneer.py setup` appends to `MANIFEST.in` without looking at its last character: `include LICENSE` without a line feed
  becomes `include LICENSEinclude versioneer.py`, so `LICENSE` is lost and the rerun does not repair it.  A line in
  `.gitattributes` for a file whose name only begins like the version file's counts as present.  With a blank in the path every
  run appends again (C97, examples).
* An early close on the last day of the range is lost: `_special_dates` compares its time in UTC with midnight of the last
  day. `XNYS` up to 24 December 2019 has a full session of 390 minutes on that day and does not list it in
  `early_closes`; with a later end the session has 210 minutes. For `XNZE` this happens on the first day (C99).
- `python versioneer.py setup` with a `VCS` other than `git` in `setup.cfg` opens the version file for writing before it
  looks up the template: it ends with `KeyError` and leaves the version file empty (C101).

## Test of the model against recorded schedules

`tools/conformance.py` evaluates `buildSchedule` for all 50 exchanges with a recorded schedule in
`/repo/tests/resources` and compares labels, opens and closes row by row: 362793 rows, all equal except 50 rows
of XPHS in 1990, where the tz database of the model (2026a) has a summer time in Manila that the one used to
record the files did not have yet.  This supports the reading of the source; no proof depends on it.

## What is not modelled

* pandas/numpy themselves: their semantics is transcribed (see trusted base) only as far as the code uses
  it.  int64 overflow is modelled for the expansion of holiday rules, for construction and for counting only
  (C80).
* threads other than in C69 and C70, where one dictionary operation, or one read or write of an attribute, is a
  step (in CPython the interpreter lock makes these atomic).
* pickling, warnings, `__repr__`; `setup.py`; of `versioneer.py` when the commands it adds to setuptools write
  the file (its computation of the version is C68, what it writes and reads is C95, its installation C97, C100 and C101).
* `etc/` scripts other than `tcal` (C51, C62), `check_holidays.py` (C67, from the parsed rows on), `bench.py` (C74),
  `make_trading_calendar_test_csv.py` (C75) and `lunisolar` (C65, C71, C76, C77, C78).  Of `lunisolar` not modelled: the
  ephemeris, floating point, the options of click, `--output` and what `new-moon` prints.

## Trusted base

* Lean 4.33 kernel; axioms `propext`, `Classical.choice`, `Quot.sound` only.
* The reading of the Python source recorded in the comment on each definition.
* The semantics of numpy 1.19 / pandas 1.1 / pytz / dateutil / toolz / pyluach 1.2.1 operations used, as
  transcribed in the models (each with a comment), in particular: `tz_localize` by searching the transition
  table; the stepping of `date_range` with `CustomBusinessDay`; `Holiday.dates` with its reference years and
  the clipping of `AbstractHolidayCalendar` to 1970-2200; `DateOffset(weekday=…)`, `WeekOfMonth`,
  `LastWeekOfMonth`, `Easter`; observances may return several dates where numpy-like lists are used.
* The zone tables in `Model/Zones.lean`, generated from the system's tzdata (2026a) in the form pytz uses
  (transitions to 2037, last offset continued).
* The tables of lunar and other recorded dates are copied from the repository.
