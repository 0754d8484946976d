{"id": "C01", "title": "resolve_alias always terminates with the canonical name or a cycle error", "statement": "For every alias table (even one containing cycles), resolve_alias(name) terminates. If following alias links from name reaches a name that is not an alias, that name is returned; otherwise CyclicCalendarAlias is raised, and the reported cycle starts at name and ends with a name that already occurs earlier in it.", "quantifier": "every finite alias table and every name", "why_tests_cant": "The loop has no static bound; tests can only try a few hand-made tables, while termination and the iff must hold for all of them.", "anchors": ["trading_calendars/calendar_utils.py::TradingCalendarDispatcher.resolve_alias"]}
{"id": "C02", "title": "Alias tables stay acyclic under every history", "statement": "Starting from the default registry (or any registry whose aliases are acyclic), after any sequence of get/register/register_type/register_alias/deregister/clear calls, with or without force and whether or not individual calls raised, resolve_alias raises CyclicCalendarAlias for no name. A register_calendar_alias call raises CyclicCalendarAlias exactly when it would have closed a cycle.", "quantifier": "every history of registry calls", "why_tests_cant": "Histories are unbounded; the invariant needs induction over them.", "anchors": ["trading_calendars/calendar_utils.py::TradingCalendarDispatcher.register_calendar_alias", "trading_calendars/calendar_utils.py::TradingCalendarDispatcher.resolve_alias", "trading_calendars/calendar_utils.py::TradingCalendarDispatcher.deregister_calendar"]}
{"id": "C03", "title": "get_calendar returns one stable object per canonical name", "statement": "Once get_calendar(n) has returned an object, every later get_calendar of any name that resolves to the same canonical name returns that same object and runs no factory, through any history of calls that does not deregister, force-register or clear that canonical name.", "quantifier": "every history of registry calls not removing the name, every factory behaviour", "why_tests_cant": "Identity must survive arbitrary interleaved calls.", "anchors": ["trading_calendars/calendar_utils.py::TradingCalendarDispatcher.get_calendar"]}
{"id": "C04", "title": "Aliases are transparent", "statement": "In every registry state get_calendar(a) behaves as get_calendar(resolve_alias(a)): same returned object and same resulting registry; if it fails, the InvalidCalendarName names the name that was asked for, not the canonical one.", "quantifier": "every registry state and name", "why_tests_cant": "All alias chains of any length.", "anchors": ["trading_calendars/calendar_utils.py::TradingCalendarDispatcher.get_calendar", "trading_calendars/calendar_utils.py::TradingCalendarDispatcher.resolve_alias"]}
{"id": "C05", "title": "Registration without force is collision-safe and changes one name only", "statement": "register_calendar / register_calendar_type / register_calendar_alias without force raise CalendarNameCollision if and only if the name is already known (as calendar, factory or alias), and then change nothing; when they succeed, only the given name's entry changes.", "quantifier": "every registry state, name and payload", "why_tests_cant": "State space is unbounded.", "anchors": ["trading_calendars/calendar_utils.py::TradingCalendarDispatcher.register_calendar", "trading_calendars/calendar_utils.py::TradingCalendarDispatcher.register_calendar_type", "trading_calendars/calendar_utils.py::TradingCalendarDispatcher.register_calendar_alias", "trading_calendars/calendar_utils.py::TradingCalendarDispatcher.has_calendar"]}
{"id": "C06", "title": "Registered calendars are retrievable; force always wins", "statement": "After register_calendar(n, c) succeeds, or register_calendar(n, c, force=True) is called in any state, get_calendar(n) returns exactly c. After register_calendar_type(n, t) likewise get_calendar(n) returns a fresh product of t. After register_calendar_alias(a, r) succeeds, get_calendar(a) gives the same as get_calendar(r). A forced (type) registration never raises CalendarNameCollision.", "quantifier": "every registry state, name and payload", "why_tests_cant": "Must hold whatever was registered before.", "anchors": ["trading_calendars/calendar_utils.py::TradingCalendarDispatcher.register_calendar", "trading_calendars/calendar_utils.py::TradingCalendarDispatcher.register_calendar_type", "trading_calendars/calendar_utils.py::TradingCalendarDispatcher.register_calendar_alias", "trading_calendars/calendar_utils.py::TradingCalendarDispatcher.get_calendar"]}
{"id": "C07", "title": "Deregistration removes the name completely and nothing else", "statement": "After deregister_calendar(n), n is unknown to has_calendar and get_calendar_names and get_calendar(n) raises InvalidCalendarName(n); whether any other name is known, and its direct entry, is unchanged. clear_calendars makes every name unknown. Deregistering an unknown name is a no-op.", "quantifier": "every registry state and name", "why_tests_cant": "Must hold for any prior history (calendar instantiated or not, alias or real).", "anchors": ["trading_calendars/calendar_utils.py::TradingCalendarDispatcher.deregister_calendar", "trading_calendars/calendar_utils.py::TradingCalendarDispatcher.clear_calendars"]}
{"id": "C08", "title": "has_calendar is implied by retrievability", "statement": "Whenever get_calendar(n) can return a calendar, has_calendar(n) is True. The converse holds exactly when the alias chain of n ends in a registered calendar or factory: get_calendar(n) raises InvalidCalendarName iff the chain ends in a name with neither (a dangling alias makes has_calendar True and get_calendar fail).", "quantifier": "every registry state and name", "why_tests_cant": "Needs all alias chains.", "anchors": ["trading_calendars/calendar_utils.py::TradingCalendarDispatcher.has_calendar", "trading_calendars/calendar_utils.py::TradingCalendarDispatcher.get_calendar"]}
{"id": "C09", "title": "get_calendar_names lists exactly the known names, once each", "statement": "A name is in get_calendar_names() iff has_calendar(name), and no name is listed twice, even if it is present both as a cached calendar and as a factory.", "quantifier": "every registry state", "why_tests_cant": "Unbounded registry contents.", "anchors": ["trading_calendars/calendar_utils.py::TradingCalendarDispatcher.get_calendar_names", "trading_calendars/calendar_utils.py::TradingCalendarDispatcher.has_calendar"]}
{"id": "C10", "title": "Failed calls leave the registry unchanged", "statement": "If any registry call made without force raises (collision, cycle, invalid name, factory exception), the registry afterwards is exactly the registry before. With force=True a call may already have removed the old entry: the resulting state is then exactly that of deregister_calendar(name).", "quantifier": "every registry state, call and factory behaviour", "why_tests_cant": "Atomicity over all states and error paths.", "anchors": ["trading_calendars/calendar_utils.py::TradingCalendarDispatcher.register_calendar_alias", "trading_calendars/calendar_utils.py::TradingCalendarDispatcher.get_calendar", "trading_calendars/calendar_utils.py::TradingCalendarDispatcher.register_calendar"]}
{"id": "C11", "title": "Every default name is retrievable", "statement": "In the registry the package starts with, every default calendar name and every default alias resolves, with no cycle, to a name with a registered factory, and no default alias shadows a default calendar name; aliases and calendar/factory names stay disjoint through every history.", "quantifier": "the whole default table; every history for disjointness", "why_tests_cant": "Disjointness is an invariant over histories.", "anchors": ["trading_calendars/calendar_utils.py::_default_calendar_factories", "trading_calendars/calendar_utils.py::_default_calendar_aliases", "trading_calendars/calendar_utils.py::TradingCalendarDispatcher"]}
{"id": "C12", "title": "next_open / next_close return the earliest strictly later open / close", "statement": "For every timestamp dt, next_open(dt) (next_close(dt)) is the smallest session open (close) strictly greater than dt; if there is none it raises IndexError and never returns a wrong value.", "quantifier": "every calendar with ordered sessions, every nanosecond timestamp", "why_tests_cant": "All timestamps including the boundaries, any number of sessions.", "anchors": ["trading_calendars/trading_calendar.py::TradingCalendar.next_open", "trading_calendars/trading_calendar.py::TradingCalendar.next_close", "trading_calendars/calendar_helpers.py::next_divider_idx"]}
{"id": "C13", "title": "previous_open / previous_close return the latest strictly earlier open / close", "statement": "For every dt, previous_open(dt) (previous_close(dt)) is the greatest open (close) strictly smaller than dt; if there is none it raises ValueError (it never wraps around to the end of the calendar).", "quantifier": "every calendar with ordered sessions, every timestamp", "why_tests_cant": "All timestamps; negative-index wrap-around only shows at one boundary.", "anchors": ["trading_calendars/trading_calendar.py::TradingCalendar.previous_open", "trading_calendars/trading_calendar.py::TradingCalendar.previous_close", "trading_calendars/calendar_helpers.py::previous_divider_idx"]}
{"id": "C14", "title": "next_minute / previous_minute are inverse steps over exchange minutes", "statement": "next_minute(dt) is the smallest exchange minute > dt, previous_minute(dt) the greatest < dt; for an exchange minute m that is not the last, previous_minute(next_minute(m)) = m, and for one that is not the first, next_minute(previous_minute(m)) = m.", "quantifier": "every calendar with ordered whole-minute sessions, every timestamp", "why_tests_cant": "Unbounded number of minutes and sessions.", "anchors": ["trading_calendars/trading_calendar.py::TradingCalendar.next_minute", "trading_calendars/trading_calendar.py::TradingCalendar.previous_minute"]}
{"id": "C15", "title": "all_minutes is exactly the ordered set of session minutes", "statement": "all_minutes is strictly increasing (no duplicates) and contains t iff, for some session, t is a whole number of minutes after the session's open and lies in [open, close], or, if the session has a break, in [open, break_start] or [break_end, close].", "quantifier": "every calendar with ordered whole-minute sessions", "why_tests_cant": "Any number of sessions of any length.", "anchors": ["trading_calendars/calendar_helpers.py::compute_all_minutes", "trading_calendars/trading_calendar.py::TradingCalendar.all_minutes"]}
{"id": "C16", "title": "is_open_on_minute is exactly membership in a session outside its break", "statement": "is_open_on_minute(dt) is True iff some session has open <= dt <= close and not (break_start <= dt < break_end); with ignore_breaks=True iff some session has open <= dt <= close. It raises for no dt, including before the first open and after the last close.", "quantifier": "every calendar with ordered sessions, every nanosecond timestamp, both flag values", "why_tests_cant": "Boundary instants of every session; NaT sentinel arithmetic for sessions without break.", "anchors": ["trading_calendars/trading_calendar.py::TradingCalendar.is_open_on_minute"]}
{"id": "C17", "title": "is_open_on_minute agrees with all_minutes", "statement": "For every whole-minute timestamp t: if is_open_on_minute(t) then t is in all_minutes; conversely a t in all_minutes is open unless it is the break_start of its session (the code lists the break-start minute in all_minutes but reports it closed). For calendars without breaks the two agree exactly.", "quantifier": "every calendar with ordered whole-minute sessions, every whole-minute timestamp", "why_tests_cant": "Two independent computations must agree everywhere.", "anchors": ["trading_calendars/trading_calendar.py::TradingCalendar.is_open_on_minute", "trading_calendars/calendar_helpers.py::compute_all_minutes"]}
{"id": "C18", "title": "minute_to_session_label('next') returns the containing or next session", "statement": "minute_to_session_label(dt) is the label of the first session whose close is >= dt: the containing session when dt lies in one, otherwise the next one; IndexError when dt is after the last close.", "quantifier": "every calendar with ordered sessions, every timestamp", "why_tests_cant": "All timestamps and boundaries.", "anchors": ["trading_calendars/trading_calendar.py::TradingCalendar.minute_to_session_label"]}
{"id": "C19", "title": "minute_to_session_label('previous' / 'none' / invalid)", "statement": "direction='previous': the containing session, else the last session that closed before dt. direction='none': the containing session when the market is open at dt, ValueError when closed (including during the break). Any other direction raises ValueError. (Code deviations: for dt before the first open 'previous' wraps to the LAST session; for dt after the last close every direction raises IndexError.)", "quantifier": "every calendar with ordered sessions, every timestamp, every direction string", "why_tests_cant": "All boundaries; the wrap-around happens only before the first open.", "anchors": ["trading_calendars/trading_calendar.py::TradingCalendar.minute_to_session_label"]}
{"id": "C20", "title": "The minute->session cache is invisible", "statement": "For every history of calls on one calendar, each minute_to_session_label call returns (or raises) exactly what it would on a freshly built calendar.", "quantifier": "every finite history of minute_to_session_label calls with any arguments", "why_tests_cant": "Cache correctness depends on all previous calls.", "anchors": ["trading_calendars/trading_calendar.py::TradingCalendar.minute_to_session_label"]}
{"id": "C21", "title": "minute_index_to_session_labels agrees with the pointwise lookup", "statement": "For a sorted index of instants each inside a session, minute_index_to_session_labels returns exactly the list of minute_to_session_label of each (any direction of 'next'/'previous'). If the index is unsorted, or some instant is in no session, it raises (ValueError; IndexError if the first bad instant is after the last close) and returns nothing.", "quantifier": "every calendar with ordered sessions, every finite index", "why_tests_cant": "Vectorised and scalar paths must agree for all inputs of all lengths.", "anchors": ["trading_calendars/trading_calendar.py::TradingCalendar.minute_index_to_session_labels"]}
{"id": "C22", "title": "Session minutes partition the calendar's minutes", "statement": "minutes_for_session(s) is exactly the part of all_minutes lying in [open(s), close(s)]; concatenating minutes_for_session over all sessions in order gives all_minutes: every exchange minute belongs to exactly one session, and minute_to_session_label of each of them is s.", "quantifier": "every calendar with ordered whole-minute sessions, every session", "why_tests_cant": "Any number of sessions.", "anchors": ["trading_calendars/trading_calendar.py::TradingCalendar.minutes_for_session", "trading_calendars/trading_calendar.py::TradingCalendar.minutes_in_range"]}
{"id": "C23", "title": "minutes_in_range is exact and inclusive", "statement": "minutes_in_range(a, b) returns in order exactly the exchange minutes m with a <= m <= b (empty if b < a), whether or not a and b are exchange minutes, provided b is not after the last exchange minute; for such b the code raises IndexError.", "quantifier": "every calendar with ordered whole-minute sessions, every pair of timestamps", "why_tests_cant": "All pairs of timestamps.", "anchors": ["trading_calendars/trading_calendar.py::TradingCalendar.minutes_in_range"]}
{"id": "C24", "title": "minutes_for_sessions_in_range is the concatenation of the sessions' minutes", "statement": "For sessions a <= b, minutes_for_sessions_in_range(a, b) equals the concatenation of minutes_for_session(s) for s in sessions_in_range(a, b). Non-session labels raise KeyError.", "quantifier": "every calendar with ordered whole-minute sessions, every pair of sessions", "why_tests_cant": "Any number of sessions in between.", "anchors": ["trading_calendars/trading_calendar.py::TradingCalendar.minutes_for_sessions_in_range"]}
{"id": "C25", "title": "minutes_count_for_sessions_in_range counts the minutes", "statement": "For sessions without breaks minutes_count_for_sessions_in_range(a, b) = len(minutes_for_sessions_in_range(a, b)). For sessions with a break the code's count is smaller by exactly one per session with a break.", "quantifier": "every calendar with ordered whole-minute sessions, every pair of session labels", "why_tests_cant": "Arithmetic and enumeration must agree for all lengths.", "anchors": ["trading_calendars/trading_calendar.py::TradingCalendar.minutes_count_for_sessions_in_range", "trading_calendars/trading_calendar.py::TradingCalendar._minutes_per_session"]}
{"id": "C26", "title": "sessions_in_range and the per-range opens/closes are exact", "statement": "sessions_in_range(a, b) returns in order exactly the session labels s with a <= s <= b for any labels a, b (sessions or not); session_opens_in_range / session_closes_in_range give the opens / closes of exactly those sessions.", "quantifier": "every calendar with ordered sessions, every pair of labels", "why_tests_cant": "All pairs incl. labels outside the calendar.", "anchors": ["trading_calendars/trading_calendar.py::TradingCalendar.sessions_in_range", "trading_calendars/trading_calendar.py::TradingCalendar.session_opens_in_range", "trading_calendars/trading_calendar.py::TradingCalendar.session_closes_in_range"]}
{"id": "C27", "title": "sessions_window returns the count+1 sessions starting/ending at the label", "statement": "sessions_window(s, n) for n >= 0 is the list of sessions starting with s of length min(n, number of later sessions)+1; for n < 0 it ends with s and has min(-n, number of earlier sessions)+1 sessions; it is always a contiguous run of the calendar containing s. A non-session raises KeyError.", "quantifier": "every calendar with ordered sessions, session and integer count", "why_tests_cant": "All counts, including those that overrun either end (negative slicing pitfalls).", "anchors": ["trading_calendars/trading_calendar.py::TradingCalendar.sessions_window"]}
{"id": "C28", "title": "session_distance is the signed inclusive number of sessions", "statement": "For a <= b session_distance(a, b) = len(sessions_in_range(a, b)); for b < a it is -session_distance(b, a). For sessions a <= b, sessions_window(a, session_distance(a,b)-1) is sessions_in_range(a,b).", "quantifier": "every calendar with ordered sessions, every pair of labels", "why_tests_cant": "All pairs.", "anchors": ["trading_calendars/trading_calendar.py::TradingCalendar.session_distance"]}
{"id": "C29", "title": "minutes_window returns count minutes starting/ending at the given minute", "statement": "Let m be the last exchange minute <= dt. minutes_window(dt, n), n >= 0, returns the first min(n, available) minutes from m on; for n < 0 with -n minutes available up to m, the -n minutes ending with m. dt before the first minute raises KeyError, dt after the last raises IndexError. (Code deviation: when fewer than -n minutes are available, Python's negative slicing wraps and the result is not the truncated window.)", "quantifier": "every calendar with ordered whole-minute sessions, timestamp and integer count", "why_tests_cant": "All counts; wrap-around only near the calendar start.", "anchors": ["trading_calendars/trading_calendar.py::TradingCalendar.minutes_window"]}
{"id": "C30", "title": "next/previous_session_label step through adjacent sessions", "statement": "For a session s that is not last, next_session_label(s) is the smallest session > s and previous_session_label of it is s again, and symmetrically; the last/first session raises ValueError and a non-session KeyError.", "quantifier": "every calendar with ordered sessions, every label", "why_tests_cant": "All sessions.", "anchors": ["trading_calendars/trading_calendar.py::TradingCalendar.next_session_label", "trading_calendars/trading_calendar.py::TradingCalendar.previous_session_label"]}
{"id": "C31", "title": "Session accessors are consistent", "statement": "For every session s with open o and close c: session_open(s)=o, session_close(s)=c, open_and_close_for_session(s)=(o,c), is_session(s), is_open_on_minute(o) and (c) are True, minute_to_session_label(o)=minute_to_session_label(c)=s in every direction, and s is the only session for which that holds. For labels that are not sessions is_session is False and the accessors raise KeyError.", "quantifier": "every calendar with ordered sessions, every session", "why_tests_cant": "All sessions.", "anchors": ["trading_calendars/trading_calendar.py::TradingCalendar.open_and_close_for_session", "trading_calendars/trading_calendar.py::TradingCalendar.session_open", "trading_calendars/trading_calendar.py::TradingCalendar.session_close", "trading_calendars/trading_calendar.py::TradingCalendar.is_session", "trading_calendars/trading_calendar.py::TradingCalendar.break_start_and_end_for_session"]}
{"id": "C32", "title": "Execution minutes are the session's minutes inside the execution window", "statement": "execution_minutes_for_session(s) is exactly the exchange minutes in [execution_time_from_open(open), execution_time_from_close(close)]; by default all the session's minutes; for us_futures the minutes from open+12h30 to close-1h, which all belong to session s. execution_minutes_for_sessions_in_range concatenates them.", "quantifier": "every calendar with ordered whole-minute sessions, every session, every execution window ending no later than the close", "why_tests_cant": "All sessions.", "anchors": ["trading_calendars/trading_calendar.py::TradingCalendar.execution_minutes_for_session", "trading_calendars/trading_calendar.py::TradingCalendar.execution_minutes_for_sessions_in_range", "trading_calendars/us_futures_calendar.py::QuantopianUSFuturesCalendar"]}
{"id": "C33", "title": "Sessions are exactly the business days of the requested range", "statement": "A built calendar's all_sessions are, in increasing order without duplicates, exactly the days d with start <= d <= end whose weekday is enabled in the weekmask and that are neither an ad-hoc holiday nor a regular holiday; first_session/last_session are its extremes.", "quantifier": "every start/end, weekmask and holiday set", "why_tests_cant": "Ranges are unbounded.", "anchors": ["trading_calendars/trading_calendar.py::TradingCalendar.__init__", "trading_calendars/trading_calendar.py::TradingCalendar.day"]}
{"id": "C34", "title": "Each session uses the time of day in effect on its date", "statement": "If open_times (close_times, break times) starts with an entry without start date and its start dates increase, then every session's standard open is the wall-clock time of the last entry whose start date is <= the session, interpreted on the session's date shifted by open_offset days in the calendar's time zone; the resulting columns are aligned with the sessions.", "quantifier": "every session list and every valid time table", "why_tests_cant": "Alignment of concatenated groups must hold for every number of regimes and sessions.", "anchors": ["trading_calendars/trading_calendar.py::_group_times", "trading_calendars/trading_calendar.py::selection", "trading_calendars/utils/pandas_utils.py::days_at_time"]}
{"id": "C35", "title": "Special opens/closes override exactly their sessions", "statement": "Every special close (open) whose instant lies in [start, end] replaces the standard close (open) of exactly the session it names, all other sessions keep their standard time; a special date that is not a session makes construction fail with ValueError instead of being applied to another day. (Code deviation: the filter compares the instant, not the date, with end, so a special close on the end date itself is dropped when end is midnight.)", "quantifier": "every calendar configuration and range", "why_tests_cant": "All configurations; the dropped last day needs a particular range.", "anchors": ["trading_calendars/trading_calendar.py::_overwrite_special_dates", "trading_calendars/trading_calendar.py::TradingCalendar._special_dates", "trading_calendars/trading_calendar.py::scheduled_special_times"]}
{"id": "C36", "title": "Special-close sessions have no break; other breaks are untouched and well matched", "statement": "In a built calendar a session with an applied special close has no break, every other session has its standard break, and every session has either both a break start and a break end or neither.", "quantifier": "every calendar configuration and range", "why_tests_cant": "All configurations.", "anchors": ["trading_calendars/trading_calendar.py::_remove_breaks_for_special_dates", "trading_calendars/trading_calendar.py::_check_breaks_match"]}
{"id": "C37", "title": "Session times are the configured wall-clock times across DST", "statement": "days_at_time(days, t, tz, k) gives for each day the unique UTC instant whose local wall clock in tz is t on day+k; if that wall-clock time does not exist or is ambiguous in tz construction raises instead of picking an instant. Order of wall-clock times is preserved in UTC for time zones whose transitions are spaced wider than their jumps.", "quantifier": "every time zone, day list, time and offset", "why_tests_cant": "All zones and transitions.", "anchors": ["trading_calendars/utils/pandas_utils.py::days_at_time"]}
{"id": "C38", "title": "Built calendars have ordered, non-overlapping sessions", "statement": "For every configuration whose wall-clock times are ordered (open < close, break inside, close before the next session's open, special times likewise) and every well-behaved time zone, every successfully built calendar satisfies open < close < next open, with breaks strictly inside: the hypotheses of all query properties.", "quantifier": "every configuration, zone and range", "why_tests_cant": "Links configuration to the query invariants for all ranges.", "anchors": ["trading_calendars/trading_calendar.py::TradingCalendar.__init__"]}
{"id": "C39", "title": "24/7 and 24/5 calendars are open exactly when they say", "statement": "For every start <= end, the 24/7 calendar is open at every whole minute from the first session's midnight to the last session's 23:59; the 24/5 calendar is open at a whole minute iff it falls on a Monday-Friday of the range.", "quantifier": "every range, every minute", "why_tests_cant": "End-to-end over all ranges and minutes.", "anchors": ["trading_calendars/always_open.py::AlwaysOpenCalendar", "trading_calendars/weekday_calendar.py::WeekdayCalendar"]}
{"id": "C40", "title": "Precomputed calendars never extend beyond their holiday data", "statement": "If a PrecomputedTradingCalendar (XKRX, XBOM, XSHG, XSES) is constructed for any start/end without raising, its first session's year is >= the first year with recorded holidays and its last session's year <= the last one; with default bounds these are Jan 1 of the first and Dec 31 of the last recorded year. XHKG enforces the same with the intersection of its lunisolar tables.", "quantifier": "every start/end", "why_tests_cant": "All ranges.", "anchors": ["trading_calendars/precomputed_trading_calendar.py::PrecomputedTradingCalendar.__init__", "trading_calendars/exchange_calendar_xhkg.py::XHKGExchangeCalendar.__init__"]}
{"id": "C41", "title": "early_closes / late_opens list exactly the overridden sessions", "statement": "After construction, early_closes (late_opens) is the increasing list of session labels whose close (open) was overridden by an applied special time.", "quantifier": "every calendar configuration and range", "why_tests_cant": "All configurations.", "anchors": ["trading_calendars/trading_calendar.py::TradingCalendar.early_closes", "trading_calendars/trading_calendar.py::TradingCalendar.late_opens", "trading_calendars/trading_calendar.py::TradingCalendar.__init__"]}
{"id": "C42", "title": "lazyval computes once per instance and never mixes instances", "statement": "Through any history of reads on any number of instances, each instance's getter runs at most once successfully, all successful reads of one instance return the same value, reads of other instances never change it, a getter that raises is not cached, and assignment always raises AttributeError without effect.", "quantifier": "every history of reads/writes on any set of instances, every getter", "why_tests_cant": "Unbounded histories.", "anchors": ["trading_calendars/utils/memoize.py::lazyval"]}
{"id": "C43", "title": "Holiday rules yield exactly the observed dates of each year", "statement": "For a holiday rule and any window [s, e], the dates produced are exactly the observed/offset dates (one per year, filtered by allowed weekdays) lying in the window and within the rule's own start_date/end_date: no year is missed at either end of the window.", "quantifier": "every rule whose displacement is under a year, every window", "why_tests_cant": "Windows and years are unbounded; edge years are where dates are lost.", "anchors": ["trading_calendars/common_holidays.py", "trading_calendars/us_holidays.py", "trading_calendars/trading_calendar.py::HolidayCalendar"]}
{"id": "C44", "title": "US floating holidays fall on the documented weekday of the month in every year", "statement": "In every year from the rule's start, MLK day is the third Monday of January, Presidents' Day the third Monday of February, Memorial Day the last Monday of May, Labor Day the first Monday of September, Thanksgiving the fourth Thursday of November (last / second to last Thursday in the historical rules), Election Day the first Tuesday after Nov 1, Black Friday the day after Thanksgiving.", "quantifier": "every year", "why_tests_cant": "Weekday patterns repeat over 400 years and tests only cover a few years.", "anchors": ["trading_calendars/us_holidays.py"]}
{"id": "C45", "title": "Weekend observance rules never leave a holiday on the wrong day", "statement": "nearest_workday moves a Saturday to Friday and a Sunday to Monday and nothing else, so its result is always Monday-Friday; sunday_to_monday changes only Sundays; vectorized_sunday_to_monday is its pointwise image for every index and never changes other entries. USNewYearsDay is never observed in the previous year; Christmas (1954+) always closes a weekday of Dec 24-26.", "quantifier": "every date, every year, every index", "why_tests_cant": "All dates.", "anchors": ["trading_calendars/us_holidays.py::USNewYearsDay", "trading_calendars/us_holidays.py::Christmas", "trading_calendars/utils/pandas_utils.py::vectorized_sunday_to_monday"]}
{"id": "C46", "title": "XNYS early closes are always trading days", "statement": "Every scheduled XNYS early close (July 3/5 rules, Black Friday, Christmas Eve, the three ad-hoc half days) is a Monday-Friday that is neither a regular XNYS holiday inside the holiday window nor an ad-hoc XNYS holiday, except 1945-12-24 and 1956-12-24. So constructing XNYS for any range of midnights with at least one trading day that contains neither of those two days never fails; constructing it for any range containing one of them strictly before its end always raises ValueError ('Special dates are not trading days').", "quantifier": "every year for the early closes; every range of midnights from 1901-12-15 (the start of the zone's data) for construction", "why_tests_cant": "All alignments of weekdays and rules.", "anchors": ["trading_calendars/exchange_calendar_xnys.py", "trading_calendars/us_holidays.py"]}
{"id": "C47", "title": "us_futures is a superset of the US futures exchanges' sessions", "statement": "Every CMES session and every IEPA session is a us_futures session for every common range. (Docstring claims the same of XCBF; the code violates it exactly on Good Fridays of years in which Christmas or New Year's Day is observed on a Friday.)", "quantifier": "every date of every year", "why_tests_cant": "All years.", "anchors": ["trading_calendars/us_futures_calendar.py::QuantopianUSFuturesCalendar", "trading_calendars/exchange_calendar_cmes.py", "trading_calendars/exchange_calendar_iepa.py", "trading_calendars/exchange_calendar_xcbf.py"]}
{"id": "C48", "title": "London and Euronext Christmas rules", "statement": "XLON: in every year from 1970 to 2200 exactly two weekdays from Dec 25 to Dec 28 are closed for Christmas and Boxing Day, and New Year closes the first weekday on or after Jan 1. XAMS-type rules: Christmas/Boxing day on a weekend are not made up.", "quantifier": "every year from 1970 to 2200, the years in which holiday rules apply (C50)", "why_tests_cant": "All weekday alignments.", "anchors": ["trading_calendars/exchange_calendar_xlon.py", "trading_calendars/common_holidays.py"]}
{"id": "C49", "title": "Easter-based holidays fall on their documented weekdays", "statement": "In every year, Easter is a Sunday between March 22 and April 25; Good Friday, Maundy Thursday, Holy Wednesday, Easter Monday, Ascension Day, Whit Monday and Corpus Christi are respectively a Friday, Thursday, Wednesday, Monday, Thursday, Monday, Thursday at the documented distance from Easter.", "quantifier": "every year", "why_tests_cant": "The Easter cycle is 5.7 million years.", "anchors": ["trading_calendars/common_holidays.py", "trading_calendars/exchange_calendar_xnys.py"]}
{"id": "C50", "title": "Regular holidays close the market throughout the holiday window", "statement": "For every day inside the window pandas evaluates holiday calendars over by default (from 1970-01-01), a regular-holiday date is not a session. (Outside that window the code applies no regular holidays at all: a calendar built from before 1970 has sessions on them.)", "quantifier": "every calendar range", "why_tests_cant": "Only ranges before 1970 expose it.", "anchors": ["trading_calendars/trading_calendar.py::TradingCalendar.day"]}
{"id": "C51", "title": "tcal marks exactly the non-sessions of the month", "statement": "The month rendering prints every day of the month exactly once, in order, in the column of its weekday, with brackets iff the day is not a session of the calendar; every day cell is 4 characters wide.", "quantifier": "every calendar, year and month", "why_tests_cant": "All months and calendars.", "anchors": ["trading_calendars/tcal.py::_render_month"]}
{"id": "C52", "title": "tcal's column layout loses no text", "statement": "_concat_lines pads every block to the same number of lines and every line to the given width, so that each output row is the row-wise join of the input rows (up to trailing blanks), for any number of blocks and lines.", "quantifier": "every list of blocks of lines not wider than the width", "why_tests_cant": "All inputs.", "anchors": ["trading_calendars/tcal.py::_concat_lines"]}
{"id": "C53", "title": "A holiday calendar's cache never shows", "statement": "AbstractHolidayCalendar.holidays keeps the last computed window per instance and slices it when a later window is contained in it. Through any history of windows asked of one instance, every answer equals what a fresh instance answers for that window.", "quantifier": "every sequence of windows, every list of holiday rules with offsets under a year (or with both bounds)", "why_tests_cant": "Unbounded histories; a difference would show only for windows nested in a previous one with a holiday observed across a year end.", "anchors": ["trading_calendars/trading_calendar.py::HolidayCalendar", "trading_calendars/trading_calendar.py::TradingCalendar._special_dates"]}
{"id": "C54", "title": "Every shipped calendar can be constructed, and has the documented sessions and times", "statement": "For every exchange calendar class in the package and every range from a midnight on that contains a trading day, construction succeeds (apart from ranges containing a day on which the class lists both an early close and a closure: 1945-12-24 and 1956-12-24 for XNYS, four days for XKLS, one for XIST, where it raises ValueError); the sessions are exactly the trading days of the range, in order and not overlapping, each opens and closes (and breaks) when local clocks read the time in effect, closes early exactly on the early-close days, and early_closes lists exactly those. A range without trading day raises ValueError.", "quantifier": "every exchange calendar class, every start (midnight) and end, every suitable zone, and the class's own zone from the start of its regular daylight-saving history", "why_tests_cant": "The classes combine dozens of rules with different year ranges; a clash between a closure and an early close, or between a clock change and an opening time, shows only for particular ranges.", "anchors": ["trading_calendars/exchange_calendar_*.py", "trading_calendars/trading_calendar.py::TradingCalendar.__init__", "trading_calendars/trading_calendar.py::_overwrite_special_dates"]}
{"id": "C55", "title": "Exchange calendars follow their published rule books", "statement": "However constructed, the sessions of XNYS, XLON, XAMS, CMES and IEPA between 1970 and 2200 are exactly the Mondays to Fridays that are neither holidays of the exchange's rule book (stated by dates: n-th weekday of a month, Easter, fixed dates and their substitutes) nor its listed single closures; the sessions of XTAE are the Sundays to Thursdays other than the documented holidays of the Hebrew calendar and the listed election days; the early closes of XNYS and XLON are exactly those of the rule book.", "quantifier": "every day of every range, every year", "why_tests_cant": "Tests compare a few years with recorded tables; the rules must agree in every year.", "anchors": ["trading_calendars/exchange_calendar_xnys.py", "trading_calendars/exchange_calendar_xlon.py", "trading_calendars/exchange_calendar_xams.py", "trading_calendars/exchange_calendar_cmes.py", "trading_calendars/exchange_calendar_iepa.py", "trading_calendars/exchange_calendar_xtae.py"]}
{"id": "C56", "title": "The Hebrew holidays are those of the Hebrew calendar, in the Gregorian year asked for", "statement": "For every Gregorian year 1 to 9998, _hebrew_year returns the one Hebrew year containing January 1 (and f(x+1) = f(x)+1); purim, passover, pentecost, new_year, yom_kippur, sukkoth and simchat_torah return the 14th of Adar (Adar II in leap years), 15th of Nisan, 6th of Sivan, and 1st, 10th, 15th, 22nd of Tishrei as the Hebrew calendar defines them (molad, 19-year cycle, four postponements), each lying in the requested Gregorian year. The New Year is never a Sunday, Wednesday or Friday and a year has 353-355 or 383-385 days.", "quantifier": "every Gregorian year representable by datetime whose following January 1 is too (1 to 9998)", "why_tests_cant": "The tests check 2019 to 2023; the postponement rules interact in rare combinations (some occur only about once per century).", "anchors": ["trading_calendars/tase_holidays.py::_hebrew_year", "trading_calendars/tase_holidays.py::purim", "trading_calendars/tase_holidays.py::passover", "trading_calendars/tase_holidays.py::pentecost", "trading_calendars/tase_holidays.py::new_year", "trading_calendars/tase_holidays.py::yom_kippur", "trading_calendars/tase_holidays.py::sukkoth", "trading_calendars/tase_holidays.py::simchat_torah"]}
{"id": "C57", "title": "Memorial day, Independence day and the fast avoid the Sabbath as documented", "statement": "For every year, memorial_day is the 4th of Iyar moved as its comments say (Thursday: a day earlier, Friday: two days earlier, Saturday: a day later), so Independence day, the day after, is a Monday, Wednesday or Thursday; fast_day is the 9th of Av, or the Sunday after if that is a Saturday. The Saturday branch of memorial_day never applies (the 4th of Iyar is never a Saturday); the law's rule is about Sundays, and memorial_day agrees with the law if and only if the 4th of Iyar is not a Sunday (first documented year where it differs: 2024).", "quantifier": "every Gregorian year 1 to 9998", "why_tests_cant": "The tested years 2019-2023 contain no year in which the 4th of Iyar is a Sunday; no number of checked years shows that a branch is never taken.", "anchors": ["trading_calendars/tase_holidays.py::memorial_day", "trading_calendars/tase_holidays.py::fast_day", "trading_calendars/tase_holidays.py::_memorial_day", "trading_calendars/tase_holidays.py::_fast_day"]}
{"id": "C58", "title": "get_calendar yields, for every default name and alias, the full calendar of its class", "statement": "Whenever the module is imported from 2019-10-16 on, and after any history of calls that does not force-register, deregister or clear a default name, get_calendar of each of the 53 default names and 24 aliases yields exactly what calling the class without arguments yields (same content or same exception), and that succeeds with sessions on exactly the class's trading days from its default start (1990-01-01; 2000-01-01 for XTKS and us_futures; for XBOM, XKRX, XSES, XSHG the recorded years) to 365 days after the import, ordered, not overlapping and keeping the exchange's timetable. Exceptions: XKLS raises ValueError from 2028-02-14 04:30 UTC on, XIST from 2028-04-23 09:30 UTC on, and XHKG once the range reaches 2050-01-03.", "quantifier": "every import instant, every history of registry calls sparing the default names, every default name and alias", "why_tests_cant": "Tests run at one instant and construct calendars for fixed ranges; that default construction keeps working as the end of the range moves with the clock, and for which calendars and from when on it stops working, cannot be observed by running the code today.", "anchors": ["trading_calendars/calendar_utils.py::_default_calendar_factories", "trading_calendars/calendar_utils.py::_default_calendar_aliases", "trading_calendars/calendar_utils.py::TradingCalendarDispatcher.get_calendar", "trading_calendars/trading_calendar.py::end_default", "trading_calendars/trading_calendar.py::TradingCalendar.__init__", "trading_calendars/precomputed_trading_calendar.py::PrecomputedTradingCalendar", "trading_calendars/exchange_calendar_xkls.py", "trading_calendars/exchange_calendar_xist.py", "trading_calendars/exchange_calendar_xhkg.py"]}
{"id": "C59", "title": "Every exchange's sessions follow its holiday list", "statement": "For each of the exchanges not already covered by C46-C48, C55 and C56 (Athens to Vienna, 43 calendars): however the calendar was constructed, a day from 1970 to 2200 inside its range is a session if and only if it is a Monday to Friday that is not a holiday by a separately written list of the exchange's holidays (day of the year, first and last year, makeup rule), not off for a feast of the Chinese, Islamic, Buddhist or Hindu calendar by separately written rules (days off by weekday of the feast), and not one of the listed single closures. Orthodox Easter, used by Athens, is the Sunday after the Julian full moon for every year from 1583 to 4099; CBOE futures keep Good Friday unless Christmas or New Year is observed on a Friday.", "quantifier": "every range, zone and day from 1970-01-01 to 2200-12-31, for each exchange", "why_tests_cant": "The tests check lists of selected years; whether a makeup rule, a first or last year or an interaction of rules is right in every year up to 2200 needs a statement about all years.", "anchors": ["trading_calendars/exchange_calendar_asex.py", "trading_calendars/exchange_calendar_bvmf.py", "trading_calendars/exchange_calendar_xasx.py", "trading_calendars/exchange_calendar_xbkk.py", "trading_calendars/exchange_calendar_xbog.py", "trading_calendars/exchange_calendar_xbom.py", "trading_calendars/exchange_calendar_xbru.py", "trading_calendars/exchange_calendar_xbud.py", "trading_calendars/exchange_calendar_xbue.py", "trading_calendars/exchange_calendar_xcbf.py", "trading_calendars/exchange_calendar_xcse.py", "trading_calendars/exchange_calendar_xdub.py", "trading_calendars/exchange_calendar_xetr.py", "trading_calendars/exchange_calendar_xfra.py", "trading_calendars/exchange_calendar_xhel.py", "trading_calendars/exchange_calendar_xhkg.py", "trading_calendars/exchange_calendar_xice.py", "trading_calendars/exchange_calendar_xidx.py", "trading_calendars/exchange_calendar_xist.py", "trading_calendars/exchange_calendar_xjse.py", "trading_calendars/exchange_calendar_xkar.py", "trading_calendars/exchange_calendar_xkls.py", "trading_calendars/exchange_calendar_xkrx.py", "trading_calendars/exchange_calendar_xlim.py", "trading_calendars/exchange_calendar_xlis.py", "trading_calendars/exchange_calendar_xmad.py", "trading_calendars/exchange_calendar_xmex.py", "trading_calendars/exchange_calendar_xmil.py", "trading_calendars/exchange_calendar_xmos.py", "trading_calendars/exchange_calendar_xnze.py", "trading_calendars/exchange_calendar_xosl.py", "trading_calendars/exchange_calendar_xpar.py", "trading_calendars/exchange_calendar_xphs.py", "trading_calendars/exchange_calendar_xpra.py", "trading_calendars/exchange_calendar_xses.py", "trading_calendars/exchange_calendar_xsgo.py", "trading_calendars/exchange_calendar_xshg.py", "trading_calendars/exchange_calendar_xsto.py", "trading_calendars/exchange_calendar_xswx.py", "trading_calendars/exchange_calendar_xtai.py", "trading_calendars/exchange_calendar_xtks.py", "trading_calendars/exchange_calendar_xtse.py", "trading_calendars/exchange_calendar_xwar.py", "trading_calendars/exchange_calendar_xwbo.py", "trading_calendars/us_futures_calendar.py", "trading_calendars/lunisolar_holidays.py"]}
{"id": "C60", "title": "Early closes are those of the exchange's list, in every year", "statement": "For each of the 23 exchanges with early closes, a day (of any year, without bound) has the early close t, by a rule of special_closes or a date of special_closes_adhoc, if and only if a separately written list says so: eves of Christmas and New Year with the first year and the weekday condition, the US half days, Holy Wednesday, eves of Chinese new year and Eid except those that are full closures, and so on.", "quantifier": "every day of every year and every time of day, for each exchange with early closes", "why_tests_cant": "Tests list the early closes of a few years; a wrong weekday condition, first year or interaction (eve that is a holiday) shows in some years only.", "anchors": ["trading_calendars/exchange_calendar_cmes.py", "trading_calendars/exchange_calendar_iepa.py", "trading_calendars/exchange_calendar_xams.py", "trading_calendars/exchange_calendar_xasx.py", "trading_calendars/exchange_calendar_xbru.py", "trading_calendars/exchange_calendar_xbue.py", "trading_calendars/exchange_calendar_xcbf.py", "trading_calendars/exchange_calendar_xdub.py", "trading_calendars/exchange_calendar_xetr.py", "trading_calendars/exchange_calendar_xfra.py", "trading_calendars/exchange_calendar_xhkg.py", "trading_calendars/exchange_calendar_xist.py", "trading_calendars/exchange_calendar_xkls.py", "trading_calendars/exchange_calendar_xlis.py", "trading_calendars/exchange_calendar_xlon.py", "trading_calendars/exchange_calendar_xmad.py", "trading_calendars/exchange_calendar_xnys.py", "trading_calendars/exchange_calendar_xnze.py", "trading_calendars/exchange_calendar_xosl.py", "trading_calendars/exchange_calendar_xpar.py", "trading_calendars/exchange_calendar_xsgo.py", "trading_calendars/exchange_calendar_xsto.py", "trading_calendars/exchange_calendar_xtse.py"]}
{"id": "C61", "title": "Every calendar keeps its documented trading hours in local time", "statement": "For each of the 51 exchange calendars and its city's time zone: every calendar built for a range that starts at midnight, not before the first day from which the zone's clock changes happen at night (named in each theorem), and that for XNYS, XKLS and XIST has none of the listed days on which an early close coincides with a closure, has, for each session, the open at the one instant at which local clocks read the opening time of the timetable in Spec/Hours.lean (the class's opening time, which for most exchanges is one minute after the market opens, but 10:00 for XTAE and 9:33 for XKAR; on the evening before for CMES, IEPA and us_futures), the close at the documented closing time, or at the early closing time and then without break if the day has one by the lists of C60 and the instant is in range, and the documented break (XHKG) or none; early_closes lists exactly those days. Times that change with the date (ASEX, BVMF, XHKG, XSGO by season) are included.", "quantifier": "every midnight-aligned range from that day on (without the listed days for XNYS, XKLS, XIST) for which construction succeeds, every session of the calendar, for each exchange in its zone", "why_tests_cant": "Tests compare recorded opens and closes of limited years; the claim concerns all ranges, daylight saving switches and changes of hours.", "anchors": ["trading_calendars/exchange_calendar_asex.py", "trading_calendars/exchange_calendar_bvmf.py", "trading_calendars/exchange_calendar_cmes.py", "trading_calendars/exchange_calendar_iepa.py", "trading_calendars/exchange_calendar_xams.py", "trading_calendars/exchange_calendar_xasx.py", "trading_calendars/exchange_calendar_xbkk.py", "trading_calendars/exchange_calendar_xbog.py", "trading_calendars/exchange_calendar_xbom.py", "trading_calendars/exchange_calendar_xbru.py", "trading_calendars/exchange_calendar_xbud.py", "trading_calendars/exchange_calendar_xbue.py", "trading_calendars/exchange_calendar_xcbf.py", "trading_calendars/exchange_calendar_xcse.py", "trading_calendars/exchange_calendar_xdub.py", "trading_calendars/exchange_calendar_xetr.py", "trading_calendars/exchange_calendar_xfra.py", "trading_calendars/exchange_calendar_xhel.py", "trading_calendars/exchange_calendar_xhkg.py", "trading_calendars/exchange_calendar_xice.py", "trading_calendars/exchange_calendar_xidx.py", "trading_calendars/exchange_calendar_xist.py", "trading_calendars/exchange_calendar_xjse.py", "trading_calendars/exchange_calendar_xkar.py", "trading_calendars/exchange_calendar_xkls.py", "trading_calendars/exchange_calendar_xkrx.py", "trading_calendars/exchange_calendar_xlim.py", "trading_calendars/exchange_calendar_xlis.py", "trading_calendars/exchange_calendar_xlon.py", "trading_calendars/exchange_calendar_xmad.py", "trading_calendars/exchange_calendar_xmex.py", "trading_calendars/exchange_calendar_xmil.py", "trading_calendars/exchange_calendar_xmos.py", "trading_calendars/exchange_calendar_xnys.py", "trading_calendars/exchange_calendar_xnze.py", "trading_calendars/exchange_calendar_xosl.py", "trading_calendars/exchange_calendar_xpar.py", "trading_calendars/exchange_calendar_xphs.py", "trading_calendars/exchange_calendar_xpra.py", "trading_calendars/exchange_calendar_xses.py", "trading_calendars/exchange_calendar_xsgo.py", "trading_calendars/exchange_calendar_xshg.py", "trading_calendars/exchange_calendar_xsto.py", "trading_calendars/exchange_calendar_xswx.py", "trading_calendars/exchange_calendar_xtae.py", "trading_calendars/exchange_calendar_xtai.py", "trading_calendars/exchange_calendar_xtks.py", "trading_calendars/exchange_calendar_xtse.py", "trading_calendars/exchange_calendar_xwar.py", "trading_calendars/exchange_calendar_xwbo.py", "trading_calendars/us_futures_calendar.py", "trading_calendars/trading_calendar.py::TradingCalendar.__init__", "trading_calendars/trading_calendar.py::days_at_time"]}
{"id": "C62", "title": "The command tcal shows the calendar, month and year asked for", "statement": "For every argument vector and every state of the registry: tcal prints a calendar if and only if no argument is --help or -h, the first argument is a name get_calendar resolves, and the remaining arguments are nothing (the current month), a year, or a month from 1 to 12 and a year, each an integer literal in the sense of int(); the text then shows exactly that month or year with exactly the non-sessions in brackets, and for a default name or alias the days without brackets are exactly the trading days of the exchange in the calendar's default range. Otherwise it exits with the usage, the text of get_calendar's exception or the name of the argument that is no integer, and a month outside 1 to 12 raises. The registry changes only as get_calendar changes it.", "quantifier": "every argument vector, registry state, current date and calendar", "why_tests_cant": "Unbounded argument strings and histories of the registry; the command has no tests.", "anchors": ["trading_calendars/tcal.py::main", "trading_calendars/tcal.py::parse_args", "trading_calendars/tcal.py::_int_arg", "trading_calendars/tcal.py::error"]}
{"id": "C63", "title": "Every calendar's schedule in UTC follows the summer time of its city", "statement": "For each of the 51 exchange calendars: in every calendar built for a range that starts at midnight, not before the first day from which the zone's clock changes happen at night (named in each theorem), and that for XNYS, XKLS and XIST has none of the listed days on which an early close coincides with a closure, on every day of the years listed for its city's clock law (for example Europe: from the last Sunday of March to the last Sunday of October, 1996 to 2037; United States: 1976 on with the rules of 1976, 1987 and 2007), each open, close, early close and break boundary is the documented local time less the offset that the law gives for that day - standard time, plus one hour in summer time - where the open of CMES, IEPA and us_futures goes by the clock of the evening before. After 2037 the offset is fixed: standard time in the north, summer time in Sydney, Wellington and Santiago. On every day of the listed years the law gives exactly one offset, and each local time from 8:00 to 21:00 happens exactly once.", "quantifier": "every midnight-aligned range from that day on (without the listed days for XNYS, XKLS, XIST) for which construction succeeds, every session of the calendar, every day of the listed years (unbounded upwards), for each exchange in its zone", "why_tests_cant": "Recorded schedules cover some years; the claim concerns every day before and after each clock change of every city, and all years after the end of the time zone tables.", "anchors": ["trading_calendars/exchange_calendar_asex.py", "trading_calendars/exchange_calendar_bvmf.py", "trading_calendars/exchange_calendar_cmes.py", "trading_calendars/exchange_calendar_iepa.py", "trading_calendars/exchange_calendar_xams.py", "trading_calendars/exchange_calendar_xasx.py", "trading_calendars/exchange_calendar_xbkk.py", "trading_calendars/exchange_calendar_xbog.py", "trading_calendars/exchange_calendar_xbom.py", "trading_calendars/exchange_calendar_xbru.py", "trading_calendars/exchange_calendar_xbud.py", "trading_calendars/exchange_calendar_xbue.py", "trading_calendars/exchange_calendar_xcbf.py", "trading_calendars/exchange_calendar_xcse.py", "trading_calendars/exchange_calendar_xdub.py", "trading_calendars/exchange_calendar_xetr.py", "trading_calendars/exchange_calendar_xfra.py", "trading_calendars/exchange_calendar_xhel.py", "trading_calendars/exchange_calendar_xhkg.py", "trading_calendars/exchange_calendar_xice.py", "trading_calendars/exchange_calendar_xidx.py", "trading_calendars/exchange_calendar_xist.py", "trading_calendars/exchange_calendar_xjse.py", "trading_calendars/exchange_calendar_xkar.py", "trading_calendars/exchange_calendar_xkls.py", "trading_calendars/exchange_calendar_xkrx.py", "trading_calendars/exchange_calendar_xlim.py", "trading_calendars/exchange_calendar_xlis.py", "trading_calendars/exchange_calendar_xlon.py", "trading_calendars/exchange_calendar_xmad.py", "trading_calendars/exchange_calendar_xmex.py", "trading_calendars/exchange_calendar_xmil.py", "trading_calendars/exchange_calendar_xmos.py", "trading_calendars/exchange_calendar_xnys.py", "trading_calendars/exchange_calendar_xnze.py", "trading_calendars/exchange_calendar_xosl.py", "trading_calendars/exchange_calendar_xpar.py", "trading_calendars/exchange_calendar_xphs.py", "trading_calendars/exchange_calendar_xpra.py", "trading_calendars/exchange_calendar_xses.py", "trading_calendars/exchange_calendar_xsgo.py", "trading_calendars/exchange_calendar_xshg.py", "trading_calendars/exchange_calendar_xsto.py", "trading_calendars/exchange_calendar_xswx.py", "trading_calendars/exchange_calendar_xtae.py", "trading_calendars/exchange_calendar_xtai.py", "trading_calendars/exchange_calendar_xtks.py", "trading_calendars/exchange_calendar_xtse.py", "trading_calendars/exchange_calendar_xwar.py", "trading_calendars/exchange_calendar_xwbo.py", "trading_calendars/us_futures_calendar.py", "trading_calendars/trading_calendar.py::TradingCalendar.__init__", "trading_calendars/trading_calendar.py::days_at_time"]}
{"id": "C64", "title": "Every calendar answers by the clock of its city", "statement": "For each of the 51 exchange calendars: take any calendar that was built for a range that starts at midnight, not before the first day from which the zone's clock changes happen at night (named in each theorem), and that for XNYS, XKLS and XIST has none of the listed days on which an early close coincides with a closure. For every instant t (to the nanosecond) at which clocks in the calendar's time zone read w: is_open_on_minute(t) is True exactly if w lies, on some trading day of the range, between the opening time of the timetable and the time the day ends, both included - the early closing time if the day has one whose instant is in the range, else the closing time - and not in the break (only XHKG has one; its start is excluded from trading, its end is not, and days that end early have none); with ignore_breaks the break does not matter. next_open and next_close give the instant of the first opening or ending reading later than w, previous_open and previous_close that of the last one earlier than w; they raise exactly if there is none. minute_to_session_label(t) is the first trading day that has not ended at w; after the last end it raises for every direction.", "quantifier": "every midnight-aligned range from that day on (without the listed days for XNYS, XKLS, XIST) for which construction succeeds, every instant and the reading of the zone's clock at it, for each exchange in its zone", "why_tests_cant": "Composition of construction, holiday rules, time zones and binary searches for all instants, including the hours around clock changes, where readings repeat or are skipped.", "anchors": ["trading_calendars/exchange_calendar_asex.py", "trading_calendars/exchange_calendar_bvmf.py", "trading_calendars/exchange_calendar_cmes.py", "trading_calendars/exchange_calendar_iepa.py", "trading_calendars/exchange_calendar_xams.py", "trading_calendars/exchange_calendar_xasx.py", "trading_calendars/exchange_calendar_xbkk.py", "trading_calendars/exchange_calendar_xbog.py", "trading_calendars/exchange_calendar_xbom.py", "trading_calendars/exchange_calendar_xbru.py", "trading_calendars/exchange_calendar_xbud.py", "trading_calendars/exchange_calendar_xbue.py", "trading_calendars/exchange_calendar_xcbf.py", "trading_calendars/exchange_calendar_xcse.py", "trading_calendars/exchange_calendar_xdub.py", "trading_calendars/exchange_calendar_xetr.py", "trading_calendars/exchange_calendar_xfra.py", "trading_calendars/exchange_calendar_xhel.py", "trading_calendars/exchange_calendar_xhkg.py", "trading_calendars/exchange_calendar_xice.py", "trading_calendars/exchange_calendar_xidx.py", "trading_calendars/exchange_calendar_xist.py", "trading_calendars/exchange_calendar_xjse.py", "trading_calendars/exchange_calendar_xkar.py", "trading_calendars/exchange_calendar_xkls.py", "trading_calendars/exchange_calendar_xkrx.py", "trading_calendars/exchange_calendar_xlim.py", "trading_calendars/exchange_calendar_xlis.py", "trading_calendars/exchange_calendar_xlon.py", "trading_calendars/exchange_calendar_xmad.py", "trading_calendars/exchange_calendar_xmex.py", "trading_calendars/exchange_calendar_xmil.py", "trading_calendars/exchange_calendar_xmos.py", "trading_calendars/exchange_calendar_xnys.py", "trading_calendars/exchange_calendar_xnze.py", "trading_calendars/exchange_calendar_xosl.py", "trading_calendars/exchange_calendar_xpar.py", "trading_calendars/exchange_calendar_xphs.py", "trading_calendars/exchange_calendar_xpra.py", "trading_calendars/exchange_calendar_xses.py", "trading_calendars/exchange_calendar_xsgo.py", "trading_calendars/exchange_calendar_xshg.py", "trading_calendars/exchange_calendar_xsto.py", "trading_calendars/exchange_calendar_xswx.py", "trading_calendars/exchange_calendar_xtae.py", "trading_calendars/exchange_calendar_xtai.py", "trading_calendars/exchange_calendar_xtks.py", "trading_calendars/exchange_calendar_xtse.py", "trading_calendars/exchange_calendar_xwar.py", "trading_calendars/exchange_calendar_xwbo.py", "trading_calendars/us_futures_calendar.py", "trading_calendars/trading_calendar.py::TradingCalendar.__init__", "trading_calendars/trading_calendar.py::TradingCalendar.is_open_on_minute", "trading_calendars/trading_calendar.py::TradingCalendar.next_open", "trading_calendars/trading_calendar.py::TradingCalendar.next_close", "trading_calendars/trading_calendar.py::TradingCalendar.previous_open", "trading_calendars/trading_calendar.py::TradingCalendar.previous_close", "trading_calendars/trading_calendar.py::TradingCalendar.minute_to_session_label", "trading_calendars/trading_calendar.py::days_at_time"]}
{"id": "C65", "title": "The script behind the lunar tables finds leap months and festivals by the rule of the Chinese calendar", "statement": "For all new moons (in order, on different dates in China), winter solstices (in order, in different months, each with a new moon on a later date) and zhongqi (none, like no solstice, before the first new moon's date; one in each month with a solstice): chinese_month_start of etc/lunisolar yields, in order, exactly the new moons that begin no leap month, where an event belongs to the last month that begins on its date in China or earlier, and a month is a leap month if it has no zhongqi, is the first such month since the last solstice month, and is not between two neighbouring solstice months that are twelve months apart. From one solstice month to the next it is twelve numbered months, if the sui has twelve months, or thirteen and one of them no zhongqi. calculate_new_year yields exactly the second numbered months after solstice months; nth_day_of_nth_chinese_month(n, d) yields for each of these the d-th day of the n-th month from it, and raises IndexError exactly if a year has no n-th month in the data. calculate_new_moon and minutes_at_phase yield exactly the minutes at which the distance is smaller than at the minute before and after (for new moons, also below the threshold).", "quantifier": "all arrays of new moons, solstices and zhongqi of any length with the stated order and coverage; all distance arrays over any comparison; all month numbers from 1 on and all days", "why_tests_cant": "The leap rule depends on the whole history since the last solstice and on the length of the sui; fake leap months occur once in decades (2033).", "anchors": ["etc/lunisolar::local_cmp", "etc/lunisolar::calculate_new_moon", "etc/lunisolar::minutes_at_phase", "etc/lunisolar::utc_to_chinese_date", "etc/lunisolar::chinese_month_start", "etc/lunisolar::calculate_new_year", "etc/lunisolar::nth_day_of_nth_chinese_month"]}
{"id": "C66", "title": "The range a calendar was constructed for does not change its answers", "statement": "Construct any of the 53 default calendar classes twice, for two ranges that start at midnight. Both calendars give the same answers about every stretch of time from lo to hi that begins at least five days after both starts and ends at least five days before both ends: the same sessions, with the same opens, closes and breaks; the same is_open_on_minute; the same sessions, opens, closes, minutes and counts in every window inside; the same session distances; the same next and previous session, open, close and minute and the same minute_to_session_label as soon as the answer of one lies inside; the same early closes and late opens. So a calendar constructed without arguments answers the same, from 2000-01-06 to 360 days after the import, whenever the library is imported. Closer to the ends it is false: a special close on the end date itself is dropped (C35); but a session is the same in both calendars whenever the same special times, if any, apply in both ranges.", "quantifier": "all pairs of midnight-aligned ranges (not within the first three days representable) for which construction succeeds, all stretches of time inside, all queries in them; for each default class, and for every configuration with ordered times, whose special times do not depend on the range, in every well-behaved zone", "why_tests_cant": "A statement about all pairs of ranges: dates of rules are generated from windows, special times are filtered by the range, searches run over arrays of different length.", "anchors": ["trading_calendars/trading_calendar.py::TradingCalendar.__init__", "trading_calendars/trading_calendar.py::TradingCalendar._special_dates", "trading_calendars/trading_calendar.py::scheduled_special_times", "trading_calendars/precomputed_trading_calendar.py::PrecomputedTradingCalendar.__init__", "trading_calendars/exchange_calendar_xhkg.py::XHKGExchangeCalendar.__init__", "trading_calendars/calendar_utils.py::_default_calendar_factories"]}
{"id": "C67", "title": "The holiday check reports exactly the differences between the calendars and the key", "statement": "check_holidays of etc/check_holidays.py, for a key with dates without time of day: for each selected default calendar, in alphabetical order, it looks the calendar up in the key by the given name, else by its own, without the leading X's if asked for. If the key has nothing under this name it says so. Otherwise it prints the number of different dates in the key and the first and last day of the range that key and calendar have in common, from the minimum date on; then, in order, exactly the days of that range on which the calendar has a session though the key has the day or it is a Saturday or Sunday; then, in order, exactly the weekdays of that range without session that the key does not have; and that the calendar matches the key if there are none. So it says so exactly if the key has a date and in that range sessions are the weekdays not in the key. The sessions are the trading days of the exchange in its default range (C58). A calendar that cannot be constructed ends the script after the reports on those before it. A minimum date with a time of day that determines the range makes every session in it appear as a holiday of the key.", "quantifier": "all keys (lists of rows of name and date), all selections, minimum dates and options; all calendars with regular sessions labelled by days, and all default calendars whenever the library is imported, after all calls that spare the default names", "why_tests_cant": "The report is a set comparison over all possible keys and calendars; the script has no tests.", "anchors": ["etc/check_holidays.py::check_holidays", "etc/check_holidays.py::_check_range", "trading_calendars/calendar_utils.py::default_calendar_names"]}
{"id": "C68", "title": "The version identifies the commit the package was installed from", "statement": "get_versions of trading_calendars/_version.py. In a git checkout the version is the nearest tag if the checkout is at the tag and unchanged; otherwise the tag, a plus sign (a dot if the tag has a plus sign already), the number of commits since, .g and the abbreviated commit name, and .dirty with uncommitted changes; without any tag, 0+untagged. and the number of commits, .g and the first seven characters of the commit name; with the full commit name, whether there are changes, and the ISO date of the commit. Two checkouts with the same version and tags without plus sign have the same tag, distance and changes and, unless they are unchanged and at a tag, the same commit name. The other styles of render give what their documentation says. A description that cannot be parsed gives the version unknown and an error. In an archive made by git the version is the first tag of the commit in alphabetical order, if none is marked as a tag the first reference name with a digit, and 0+unknown with an error without either. Without both it is what follows calendars- in the name of the first of the package's three nearest parent directories that begins so, and 0+unknown if none does.", "quantifier": "all states of a checkout with names and dates as git makes them (tags without white space), all reference names, all paths, all styles", "why_tests_cant": "The texts git prints are unbounded, and the tag may itself look like the suffix of a description (1.0-3-gab); that the parse is the inverse of the description needs an argument about all texts.", "anchors": ["trading_calendars/_version.py::get_versions", "trading_calendars/_version.py::git_pieces_from_vcs", "trading_calendars/_version.py::git_versions_from_keywords", "trading_calendars/_version.py::versions_from_parentdir", "trading_calendars/_version.py::render"]}
{"id": "C69", "title": "The registry under concurrent calls", "statement": "Calls of the dispatcher by several threads (or by factories from within a call), interleaved between any two accesses to its dictionaries. A call during which no other runs does exactly what the sequential properties say. Starting without alias cycles, whenever no register_calendar_alias call is in progress no name is on a cycle, whatever interleaving of whatever calls came before. While all calls only read (get_calendar, has_calendar, get_calendar_names, resolve_alias), each get_calendar that finishes returns the calendar cached at the beginning or one made by the factory of its canonical name, or raises what it would raise alone, and nothing else enters the registry. Once a calendar is cached and no call is past its lookup of it or about to remove it, it stays and every lookup returns it, through all interleavings of calls that do not remove it. What threads cannot rely on: two first calls may return two different calendars; two registrations of one name without force may both succeed; get_calendar may raise KeyError while its alias is removed; two alias registrations that would together form a cycle may both be refused; a refused alias registration may raise KeyError when another thread removes the alias.", "quantifier": "all registries, all numbers of threads and calls, all interleavings of their steps, all factory behaviours", "why_tests_cant": "The interleavings are unbounded in number and not under a test's control.", "anchors": ["trading_calendars/calendar_utils.py::TradingCalendarDispatcher"]}
{"id": "C70", "title": "A calendar's caches under concurrent calls", "statement": "Calls of minute_to_session_label on one calendar by several threads, interleaved between any two accesses to its cache. A call alone does what the sequential property says. With directions other than next every call answers as on a fresh calendar. With next a call answers as on a fresh calendar or gives the label of a minute that another call asked about, never anything else; so if all such calls concern one session all are right. What threads cannot rely on: on every calendar, for minutes of any two sessions with different labels, there is an interleaving of three calls in which one returns the other session's label, since the cache is read once for the minute and once more for the label. Lazy values (lazyval) read by several threads: every read gives the result of a run of the getter for its own object and attribute; with a getter that gives the same each time all get the same value; once a value is cached and no read is past its lookup, all later reads give this object. Two first reads may both run the getter and give two different objects.", "quantifier": "all calendars with regular sessions (for the wrong label), all calendars (otherwise), all minutes and directions, all numbers of threads and calls, all interleavings, all getters", "why_tests_cant": "The interleavings are unbounded in number and not under a test's control; the window for the wrong label is a single bytecode boundary.", "anchors": ["trading_calendars/trading_calendar.py::TradingCalendar.minute_to_session_label", "trading_calendars/utils/memoize.py::lazyval"]}
{"id": "C71", "title": "chinese-cal prints the days of the lunar month asked for", "statement": "For all new moons, solstices and zhongqi as in C65: chinese-cal n y prints exactly the days in China from the new moon of the year's n-th numbered month to the day before the next numbered month (so a leap month comes with the month before it), each once, as its Gregorian day number, in the column of its weekday, a Sunday starting each row, everything else blank; above them the number of the month and the year, the Gregorian months of the first and the last day, and the names of the weekdays. If new moons are 29 or 30 days apart the mark (+) stands exactly at the months that have a leap month. chinese-cal y prints all twelve months, three side by side. If the data end before the month (or the year) does, or the month is 0, an IndexError is raised; if no year of the data begins in y, a ValueError that names y. Month numbers above 12 go on into the next year under the heading of the year asked for.", "quantifier": "all new moons, solstices and zhongqi in order, all years, all month numbers, data ending anywhere", "why_tests_cant": "The grid depends on the weekday of the first day, on the month's length and on where leap months and the end of the data fall; tests can show a few months only (the script has none).", "anchors": ["etc/lunisolar::chinese_cal", "etc/lunisolar::_render_month", "etc/lunisolar::_concat_lines"]}
{"id": "C72", "title": "Calls that are interrupted", "statement": "A call on the dispatcher that is ended from outside (KeyboardInterrupt) between any two accesses to its dictionaries. get_calendar, has_calendar, get_calendar_names, resolve_alias and unforced registrations have then done nothing or all, except that an alias refused because of a cycle may be left in the table. deregister_calendar and forced registrations touch no other name; what was there for the name goes in the order calendar, factory, alias. clear_calendars has lost nothing, all calendars, all calendars and factories, or all. Making an interrupted deregister_calendar, clear_calendars or forced registration again has exactly the effect and result of the call alone; get_calendar made again gives the registered calendar or one made by the factory of its name. A name leads into a cycle afterwards only if a registration of an alias was interrupted, and deregistering that alias ends it; in a history of any calls of which only registrations of aliases are never interrupted no name ever does. Two findings: a forced registration can be interrupted with the name unknown, and a refused alias can leave its cycle behind, so that every later get_calendar of it raises. On a calendar, after calls of minute_to_session_label interrupted anywhere every call answers as on a fresh calendar; lazy values given once are given ever after, without another run of the getter, whatever reads were interrupted.", "quantifier": "all registries, all calls, all points of interruption, all histories of interrupted calls, all factories, all calendars, all getters", "why_tests_cant": "A test cannot place an asynchronous exception at each boundary between two bytecodes, nor in all combinations over a history.", "anchors": ["trading_calendars/calendar_utils.py::TradingCalendarDispatcher", "trading_calendars/trading_calendar.py::TradingCalendar.minute_to_session_label", "trading_calendars/utils/memoize.py::lazyval"]}
{"id": "C73", "title": "What the exceptions say", "statement": "The text of an exception of errors.py: for any message of texts and places (braces in texts doubled) and any arguments, str(e) is the texts with the arguments in their places as they are, also if they contain braces; a place without argument raises KeyError, the base class without message AttributeError. get_calendar of an unknown name says 'The requested TradingCalendar, NAME, does not exist.' with the name that was asked for; a refused registration 'A calendar with the name NAME is already registered.'; a cycle 'Cycle in calendar aliases: [...]' with the names that are followed, up to the first that comes again, as string literals with arrows between them. A literal denotes its name and has only characters that can be shown, whatever is in the name. The text tells which exception it is and all names in it: different exceptions have different texts. e.message is the text when it was first read and stays so, str(e) follows the arguments. tcal shows the text for an unknown calendar.", "quantifier": "all messages, arguments, names (any characters), registries, histories of reading and changing an exception", "why_tests_cant": "Names are arbitrary strings; that texts are unambiguous is a statement about all pairs of them.", "anchors": ["trading_calendars/errors.py::ZiplineCalendarError", "trading_calendars/errors.py::InvalidCalendarName", "trading_calendars/errors.py::CalendarNameCollision", "trading_calendars/errors.py::CyclicCalendarAlias", "trading_calendars/calendar_utils.py::TradingCalendarDispatcher.resolve_alias"]}
{"id": "C74", "title": "Several dispatchers, and the dictionaries they are made from", "statement": "In any program that makes dictionaries, changes them, makes dispatchers from them and calls their methods: the dictionaries of factories and aliases given to TradingCalendarDispatcher stay as they are unless code that has them changes them; the factories and aliases of a dispatcher are changed by calls on itself only; a dispatcher is not affected by calls on others, unless they were made from the same dictionary of calendars. That dictionary is not copied: dispatchers made from the same one have the same calendars, so that one returns the calendar the other has made, and clear_calendars on one makes calendars registered on the other unknown (finding). construct_all_calendars of etc/bench.py, for any dictionaries in which each alias stands for a factory and no name is both, changes no other dispatcher and none of the dictionaries it goes through; it ends with the exception of a factory, or has called every factory exactly once and left its dispatcher empty.", "quantifier": "all programs of any length over any number of dictionaries and dispatchers, all calls, all factories", "why_tests_cant": "Aliasing shows only in combinations of dispatchers, dictionaries and calls, which are unbounded.", "anchors": ["trading_calendars/calendar_utils.py::TradingCalendarDispatcher.__init__", "etc/bench.py::construct_all_calendars"]}
{"id": "C75", "title": "The CSV files of the exchange calendar tests", "statement": "etc/make_trading_calendar_test_csv.py with any spelling (capitals and small letters) of a default calendar name or alias other than us_futures prints the path of, and writes, the file tests/resources/<name in small letters>.csv of the project the script is in, wherever that is: a heading, then one line for each session that the class offers, in order, with the date of the session, its open and its close to the second. For any calendar the file shows label, open and close of every session exactly (to the nanosecond if need be) and can be read in one way only: calendars with the same file have the same sessions, opens and closes (breaks are not in the file). Without a name, or with a name that the dispatcher refuses, nothing is printed or written. The name us_futures is refused in every spelling (finding), and 24/7 is written to 24/7.csv, in a directory that does not exist, while the tests read 24-7.csv (finding).", "quantifier": "all calendars of any size from the year 1000 on, all spellings of names, all project directories, all import times", "why_tests_cant": "The files are the oracle of the test suite, produced by this script; that they lose nothing is a statement about all calendars.", "anchors": ["etc/make_trading_calendar_test_csv.py", "trading_calendars/trading_calendar.py::TradingCalendar.opens", "trading_calendars/trading_calendar.py::TradingCalendar.closes"]}
{"id": "C76", "title": "Longitudes saved by etc/lunisolar are read back minute for minute, whatever interrupted the runs", "statement": "lunar-ecliptic-longitude and solar-ecliptic-longitude save every minute from --start to --stop in exactly one file, whose name tells its first and last minute. load_precomputed_data then returns each minute once and in order with its longitude, in whatever order the directory is listed, beside any files without underscore, whatever interrupted earlier runs with the same options if the last run was complete, and also for a run that begins where another one stopped. After a run interrupted for the first time it returns a part of the minutes from the start on, each longitude being that of its minute. load_new_moons yields, from complete runs over the same minutes, exactly the minutes at which sun and moon are closer than the minute before and after and within the threshold; over different minutes it raises ValueError; after interruptions it raises ValueError or yields the right new moons of a part of the minutes from the start on, unless exactly one longitude was saved. Findings: a run with a later --stop into the same directory leaves the old last file, whose minutes are then loaded twice; a second run interrupted in the first of several files shifts all later longitudes to wrong minutes; with a single saved longitude of the sun the moon is compared with it throughout; a file .DS_Store makes loading fail. Text is read as a minute exactly when it is a date or a date with a time of day; anything else is refused.", "quantifier": "all longitudes, ranges of minutes of any length in the years 0 to 9999, orders of the directory, sequences of interrupted runs and points of interruption", "why_tests_cant": "Crash points, listings and ranges are unbounded, and a real run takes days.", "anchors": ["etc/lunisolar::load_precomputed_data", "etc/lunisolar::lunar_ecliptic_longitude", "etc/lunisolar::solar_solar_ecliptic_longitude", "etc/lunisolar::calculate_new_moon", "etc/lunisolar::load_new_moons"]}
{"id": "C77", "title": "The commands of etc/lunisolar print the right days from the saved longitudes", "statement": "From directories that complete runs of solar- and lunar-ecliptic-longitude over the same minutes filled, beside any files without underscore: chinese-new-year prints the dates in China of the new moons that begin a year, in order, one per line; china-buddhas-birthday, dragon-boat-festival, mid-autumn-festival and double-ninth-festival print for each year that begins in the data the 8th day of its 4th, the 5th of its 5th, the 15th of its 8th and the 9th of its 9th month, leap months not counted, or raise IndexError if the data end before such a month begins; qingming-festival prints the dates in China of the minutes at which the sun is closer to its longitude than the minute before and after; chinese-cal prints the month of a year, or its twelve months. Each line shows the date as year-month-day, followed by the name of its weekday if asked for. Finding: with the pandas version the project fixes --weekday never prints: it raises AttributeError, unless another error comes first, because weekday_name was removed in pandas 1.0.", "quantifier": "all longitudes of sun and moon whose new moons, solstices and zhongqi are usable, ranges of minutes of any length in the years 0 to 9999, orders of the directories, weekday options, festivals, years and months", "why_tests_cant": "Sky data and ranges are unbounded and need an ephemeris; no test runs the script.", "anchors": ["etc/lunisolar::print_dates", "etc/lunisolar::chinese_new_year", "etc/lunisolar::qingming_festival", "etc/lunisolar::china_buddhas_birthday", "etc/lunisolar::dragon_boat_festival", "etc/lunisolar::mid_autumn_festival", "etc/lunisolar::double_ninth_festival", "etc/lunisolar::chinese_cal", "etc/lunisolar::minutes_at_phase"]}
{"id": "C78", "title": "utc_to_jd_tt never runs backwards and adds the next correction of its table; smoothing compares what enters and leaves the window", "statement": "utc_to_jd_tt adds to the Julian date of every time the correction of the first row of its table whose day has not begun, or of the last row; it is between 32.184 and 72 seconds. A later time never gets an earlier or equal Julian date. From 1973-02-01 on the result is within one second of what the row in force at that time gives. Finding: side='right' without subtracting one selects the row after the one in force, so from 1700 to 1973-02-01 43.4724 seconds are added instead of 32.184. smooth with a window from 1 to the length yields the means of all windows in order, len(arr) - window + 1 of them (finding: the documentation says len(arr) - window // 2); with a longer window it repeats a fraction of the sum; with an empty window or array it raises ValueError. smoothed_local_cmp finds exactly the middles of the windows for which the comparison holds between the element that enters and the one that leaves on either side.", "quantifier": "all times before, in and after the table; all arrays, windows and comparisons of differences", "why_tests_cant": "Times and arrays are unbounded, and monotonicity relates all pairs of times.", "anchors": ["etc/lunisolar::utc_to_jd_tt", "etc/lunisolar::smooth", "etc/lunisolar::smoothed_local_cmp", "etc/lunisolar::local_cmp"]}
{"id": "C79", "title": "The time of day in start and end", "statement": "A calendar constructed with a start that is not a midnight has all its sessions late by the start's time of day: labels, opens, closes and breaks. It has no early closes or late opens, and if a special open or close of the class falls into the range it is not constructed at all. Its sessions are still ordered and do not overlap. Its labels are the trading days from start to end, except that the last one is missing if the start is on a trading day, the end is not, and the end has the earlier time of day. The end's time of day makes no difference if the start is a midnight, unless a special time falls between the two ends.", "quantifier": "every class with ordered times in a well-behaved zone whose special dates are midnights, and every class of the library; every start and end", "why_tests_cant": "Tests construct calendars from midnights only; there are as many starts and ends as nanoseconds, for each class, and what goes wrong depends on the special dates in between.", "anchors": ["trading_calendars/trading_calendar.py: TradingCalendar.__init__ (date_range), _group_times, days_at_time, _special_dates, _overwrite_special_dates"]}
{"id": "C80", "title": "Nothing overflows", "statement": "Timestamps are int64 nanoseconds and minutes are counted in float64, so a sum or difference that does not fit would wrap around, round, or raise. For a range that stays four days away from the ends of int64 (1677-09-21 and 2262-04-11), none of this happens once the holiday rules are expanded: the calendar constructed with machine arithmetic, its trading minutes and its counts of minutes are those of unbounded integers, no instant in it is the one pandas reads as NaT, and construction raises exactly when it would with unbounded integers. The rules of special closes are expanded from the year before the start to the year after the end; each class of the library therefore has a first year to start in (1677, 1678 or 1679) and a last year to end in (2260, 2261 or 2262): within them construction is that of unbounded integers, outside pandas refuses with OutOfBoundsDatetime.", "quantifier": "every machine that is exact where operands and result fit, whatever it does otherwise; every class with ordered times within a day of the session in a well-behaved zone, and every class of the library with its holiday rules; every start and end inside; every range counted", "why_tests_cant": "Overflow shows at particular values only, silently, and which operation overflows first depends on range, zone, table and special dates; tests look at a few decades.", "anchors": ["trading_calendars/trading_calendar.py: TradingCalendar.__init__, _group_times, _special_dates, _overwrite_special_dates, _minutes_per_session, minutes_count_for_sessions_in_range", "trading_calendars/calendar_helpers.py: compute_all_minutes, NP_NAT", "trading_calendars/utils/pandas_utils.py: days_at_time", "trading_calendars/trading_calendar.py: TradingCalendar.day, scheduled_special_times, HolidayCalendar"]}
{"id": "C81", "title": "Changes to a class have local effects", "statement": "Where two classes configure the same trading days and times, their calendars show the same: a session whose date is configured the same has the same times in both, and over a stretch of dates configured the same all queries agree up to a few days from the ends of the stretch. Adding a holiday removes the session of that day and changes no other session, early close or late open; if the day has a special open or close in the range, construction fails instead. Adding an early close changes the close of that session only, dropping its break. Adding a late open changes the open of that session only. New trading hours from a day on leave every earlier session as it was and keep the set of sessions.", "quantifier": "every pair of classes with ordered times in a well-behaved zone, every date, every new holiday, early close or trading hours, every range of construction, every query outside the stretch affected; for holidays also every class of the library", "why_tests_cant": "Tests compare a calendar to a fixed table. That a pull request adding one holiday or one early close cannot disturb any other date is about all pairs of classes and ranges.", "anchors": ["trading_calendars/trading_calendar.py: TradingCalendar.__init__, adhoc_holidays, special_closes_adhoc, open_times, close_times, _group_times, _special_dates, _calculate_special_opens, _calculate_special_closes, _overwrite_special_dates"]}
{"id": "C82", "title": "How answers combine", "statement": "A later instant never has an earlier next or previous open, close or minute, and no earlier session label in direction next nor, once the first session has opened, in direction previous; the labels of the two directions are ordered and differ exactly outside sessions, and direction none gives the label of both. Between an instant and its next open the next open stays the same, and next and previous open undo each other on opens; so for closes. An instant is inside a session, its close excluded, exactly when there is a next close and no next open before it, so is_open_on_minute(t, ignore_breaks=True) can be read off next_open and next_close. Cutting a range in two, its sessions and minutes are concatenated and its counts of minutes added; session_distance adds up to one less for a session in the middle, and changes sign when its ends are swapped. A window of sessions or minutes can be extended from its end and read backwards from its last element.", "quantifier": "every calendar with ordered sessions that do not overlap (C38: every constructed one), every instant, range and count; for minutes, sessions at whole minutes", "why_tests_cant": "These are laws about pairs and triples of calls; tests look at single calls on a few instants of a few calendars.", "anchors": ["trading_calendars/trading_calendar.py: TradingCalendar.next_open, next_close, previous_open, previous_close, next_minute, previous_minute, minute_to_session_label, is_open_on_minute, sessions_in_range, minutes_in_range, minutes_count_for_sessions_in_range, session_distance, sessions_window, minutes_window"]}
{"id": "C83", "title": "The window of holiday calendars", "statement": "pandas expands the regular holidays of a class over a window fixed by its release (1970 to 2030 up to 0.25, to 2200 later). Releases whose windows cover the days of the range construct the same calendar, or raise the same error. Outside the window no day is a regular holiday, whatever the rules say: with an older pandas the markets trade at Christmas 2031.", "quantifier": "every class whose regular holidays are rules, in particular every class of the library; every pair of windows; every range", "why_tests_cant": "Tests run against one release of pandas and stop in the 2020s; the claim compares all windows and ranges.", "anchors": ["trading_calendars/trading_calendar.py: TradingCalendar.day, regular_holidays, HolidayCalendar"]}
{"id": "C84", "title": "How long a market stays closed, and how many sessions a year has", "statement": "For each default calendar the longest run of consecutive days without a session is known (XNYS 11 days, in 1933; ASEX 37, in 2015; XSHG 19; most others 4 to 6; 24/7 none) and is reached. Hence next_session_label and previous_session_label are never more than that number plus one days away, any n times so many days of the range have n sessions at least, and for each calendar the least and the greatest number of sessions a calendar year has are known (XNYS 248 and 254 for 1990 to 2200) and bound the length of sessions_in_range from January 1 to December 31. No combination of the rules ever closes a market for longer.", "quantifier": "every day; every range; every default calendar; every year from the default start of the calendar to 2200 (for recorded holidays: the recorded years)", "why_tests_cant": "The interplay of movable feasts, observances, ad hoc closures and weekends repeats after no period a test could cover; the bound on closures is about all days, including those before 1970 and after 2200.", "anchors": ["trading_calendars/trading_calendar.py: TradingCalendar.next_session_label, previous_session_label, sessions_in_range", "trading_calendars/calendar_utils.py: _default_calendar_factories", "trading_calendars/exchange_calendar_*.py: regular_holidays, adhoc_holidays, weekmask"]}
{"id": "C85", "title": "Markets with the same days", "statement": "Some calendars agree: XETR and XFRA have the same sessions in every range; XAMS and XBRU, and XAMS and XPAR, differ last on 2001-04-30, XAMS and XLIS on 2002-12-24, XAMS and XMAD on 2010-12-31, CMES and IEPA on 2012-10-29, CMES and us_futures on 2018-12-05, and never after. Some include another: every session of XNYS is one of IEPA, every one of IEPA one of CMES, every one of CMES or XSWX one of us_futures; since 1970-02-17 every session of XNYS is one of XCBF, and since 2002 every session of ASEX, XETR, XHEL, XICE, XJSE, XMIL, XOSL, XSTO, XSWX, XWAR and XWBO is one of XAMS. Calendars of two such names constructed for the same range after that day have the same sessions, or sessions included in the other's; the dates are sharp.", "quantifier": "every day; every pair of names in the tables; every range for which both calendars are constructed", "why_tests_cant": "The classes list their holidays separately, with different rules, periods and ad hoc closures; that they never disagree after a date is a claim about all later days, which tests of single years cannot cover.", "anchors": ["trading_calendars/exchange_calendar_cmes.py, exchange_calendar_iepa.py, us_futures_calendar.py, exchange_calendar_xnys.py, exchange_calendar_xcbf.py: regular_holidays, adhoc_holidays", "trading_calendars/exchange_calendar_xams.py, exchange_calendar_xbru.py, exchange_calendar_xpar.py, exchange_calendar_xlis.py, exchange_calendar_xmad.py: regular_holidays, adhoc_holidays", "trading_calendars/calendar_utils.py: _default_calendar_factories"]}
{"id": "C86", "title": "Markets that are open at the same time", "statement": "The markets of Euronext are one calendar: constructed for the same range from Christmas 2002 on, the calendars XAMS, XBRU, XLIS and XPAR have the same sessions with the same opens and closes in UTC, although Lisbon's class has other hours in another zone, so they answer every query alike, and they have the same early closes. Whenever XNYS, IEPA or CMES (from 1976 on) or XSWX (from 1996 on) is open, us_futures is; whenever XMAD is (from 2011 on), XAMS is. Up to 2200, whenever XNYS is open IEPA and XCBF are (from 1976 on) and CMES is (from 1993 on), and whenever XETR, XFRA, XHEL, XMIL, XOSL, XSTO or XSWX is open (from 2001 on), XAMS is.", "quantifier": "every range from a midnight on for which both calendars are constructed, from the dates given; every instant", "why_tests_cant": "That one market is open whenever another one is combines holidays, early closes, hours and summer time of two classes on every day; tests compare single days of one class with a table.", "anchors": ["trading_calendars/trading_calendar.py: TradingCalendar.is_open_on_minute, TradingCalendar.__init__", "trading_calendars/exchange_calendar_xams.py, exchange_calendar_xbru.py, exchange_calendar_xlis.py, exchange_calendar_xpar.py: open_times, close_times, special_closes, tz", "trading_calendars/exchange_calendar_cmes.py, exchange_calendar_iepa.py, us_futures_calendar.py, exchange_calendar_xnys.py, exchange_calendar_xcbf.py: open_times, close_times, open_offset, special_closes", "trading_calendars/exchange_calendar_xetr.py, exchange_calendar_xhel.py, exchange_calendar_xmad.py, exchange_calendar_xosl.py, exchange_calendar_xsto.py: special_closes, regular_holidays"]}
{"id": "C87", "title": "The order of registrations", "statement": "Registrations that replace nothing (register_calendar, register_calendar_type and register_calendar_alias without force) and succeed one after the other in some order succeed in every order, and no later history of calls can tell the orders apart: same answers, same exceptions, get_calendar_names the same up to its order. Any two calls that write different names, forced ones and deregistrations included, have the same effect in both orders if they succeed in both; they need not (replacing an alias b of a by a calendar and then making a an alias of b succeeds, the other order is a cycle). In general the order in which names were inserted never shows.", "quantifier": "every registry without alias cycles (C02: every one reached by public calls), every list of registrations and every permutation of it, every later history, every behaviour of factories", "why_tests_cant": "Libraries register their calendars when they are imported, in an order nobody fixes; the number of orders grows with the factorial of the number of registrations, and a difference may only show in a later call.", "anchors": ["trading_calendars/calendar_utils.py: TradingCalendarDispatcher.register_calendar, register_calendar_type, register_calendar_alias, deregister_calendar, resolve_alias, get_calendar_names"]}
{"id": "C88", "title": "How many minutes a session has", "statement": "For every default calendar a full session has one of a few numbers of minutes, the same in summer and winter, and an early close one of a few others: 390 and 210 or 270 for XNYS, 510 and 270 for XLON, 1440 and 1140 for CMES, 302 or 332 and 120, 150 or 180 for XHKG with its breaks, 436 for XTAE, 1440 for 24/7 and 24/5, and so on (a table over all names). So len(minutes_for_session_label(s)) is one of these, whatever the range the calendar was constructed for. One session is an exception: 1942-02-09 (war time began that night) is an hour short for the New York and Chicago futures calendars. For calendars without breaks minutes_count_for_sessions_in_range lies between the least and the greatest of these numbers times the number of sessions in the range, for every range; where full sessions have one length and early closes have one, it is exactly so many minutes for each.", "quantifier": "every default name, every range from a midnight in the tables on without the days of C58 for which the calendar is constructed, every session; every pair of bounds", "why_tests_cant": "Opens and closes are separate local times turned into UTC separately, with clocks that change at many dates; whether the difference ever comes out an hour off is a claim about all days and all changes of each zone.", "anchors": ["trading_calendars/trading_calendar.py: TradingCalendar.minutes_for_session_label (minutes_for_session), minutes_count_for_sessions_in_range, days_at_time, _special_dates", "trading_calendars/exchange_calendar_*.py: open_times, close_times, break_start_times, break_end_times, special_closes, tz"]}
{"id": "C89", "title": "Factories that call the registry", "statement": "A factory is called in the middle of get_calendar and may call the registry itself, say to make a calendar from two others. If factories only look names up and do not depend on each other in a circle, then get_calendar changes no factory, alias or existing calendar, whatever is returned stays (also what factories got while it ran), all answers for names that stand for one calendar are one object, whoever asked, factories run only for names that have no calendar yet, a call that raises leaves no calendar under its name but those it got on the way, and the interpreter's recursion limit never shows if it has room for the layers. Factories that form a circle and do not catch RecursionError raise it at every limit and add no calendar. Whatever factories do, alias tables stay acyclic and what get_calendar returns is kept under the name it stood for. A factory that gets its own name and then returns something else hands out two objects; one that forces an alias under its own name leaves a name with two roles.", "quantifier": "every behaviour of factories (any program of public calls depending on their answers), every registry, every history, every recursion limit", "why_tests_cant": "Factories are arbitrary user code interleaved with the state of the registry; tests use factories that return at once.", "anchors": ["trading_calendars/calendar_utils.py: TradingCalendarDispatcher.get_calendar, resolve_alias, register_calendar_alias"]}
{"id": "C90", "title": "The tables of festivals agree with the calendars they are written in", "statement": "The precomputed dates of festivals are right as far as the moon tells. In every year from 1960 to 2049 except 2034 the tables of lunisolar_holidays.py have the Chinese new year, Buddha's birthday, the dragon boat, mid-autumn and double ninth festival once each, on the day of the lunar month they are named after, counted from the new year with one leap month or none, which also gives the next new year. In 2034 the four later festivals are a month early by the new year of the same file, so calendars of XHKG and XTAI are closed on four (two) weekdays that are no festivals and open on the festivals; whatever usable data it is given, etc/lunisolar does not compute these dates together with this new year. The tomb-sweeping festival is on April 4 or 5. The tables of Islamic festivals have one entry for each Islamic year, at the day of the month, except the prophet's birthday of 1436 (a Saturday) in Malaysia; the days off of XIDX and XKAR belong to their festivals, except 2012-05-18. The Buddhist holidays of XBKK are at full moon, three and two months apart. The equinoxes of XTKS are those of the formula, made up on Monday, until 2021; every calendar of XTKS is open on the equinoxes of 2022 to 2099 that are weekdays.", "quantifier": "every year and every entry of the tables; every calendar of XHKG, XTAI and XTKS that was constructed over a range of midnights with these days; all data of the script with new moons at least 29 days apart", "why_tests_cant": "The tests compare some years with answer keys; whether each entry of sixteen tables over up to ninety years is in the month it is named after is a claim about all of them, and the consequences concern every calendar that can be constructed.", "anchors": ["trading_calendars/lunisolar_holidays.py", "trading_calendars/common_holidays.py: eid_al_fitr_first_day, eid_al_adha_first_day", "trading_calendars/xkls_holidays.py", "trading_calendars/xbkk_holidays.py", "trading_calendars/xtks_holidays.py: VernalEquinoxes, AutumnalEquinoxes", "trading_calendars/exchange_calendar_xhkg.py", "trading_calendars/exchange_calendar_xtai.py", "trading_calendars/exchange_calendar_xidx.py", "trading_calendars/exchange_calendar_xkar.py", "trading_calendars/exchange_calendar_xphs.py", "etc/lunisolar: calculate_new_year, nth_day_of_nth_chinese_month"]}
{"id": "C91", "title": "Recorded holidays have the days that every year has, but for a few", "statement": "XBOM, XKRX, XSES and XSHG have no holiday rules but lists of recorded closures. Every calendar of XBOM over 1997-2020 is closed on January 26, April 14, May 1, August 15, October 2, December 25 and Good Friday, except that it is open on Good Friday 1997 and on January 26, Good Friday, May 1 and October 2 of 1998; in 1998 it is closed on four weekdays only. XKRX over 1986-2021 is closed on January 1, March 1, May 5, June 6, August 15, October 3, December 25 and 31, except 1989-10-03, 1991-01-01 and 1993-12-31, and from 1990 on the lunar new year and the day after it, except in 1996, and on the day before, of and after the mid-autumn festival. XSES over 1986-2020 is closed on January 1, May 1, August 9 and December 25 (a Sunday is made up on Monday) and Good Friday except 1987, and on the first two days of the Chinese year except 1991-02-15 and 1994-02-10; it is closed on 1991-01-15 and 1994-01-10 instead. XSHG over 1999-2025 is closed on January 1, May 1, October 1-5 and the first three days of the Chinese year, and from 2008 on the tomb-sweeping, dragon boat and mid-autumn festivals, except 2025-10-06.", "quantifier": "every year of the recorded range, every day of the books and every entry of the tables of festivals in it; every constructed calendar whose range has the day", "why_tests_cant": "Tests compare the lists with answer keys made from the same source. That hundreds of recorded dates cover each yearly holiday, and on which days they do not, is a claim about all years and all calendars.", "anchors": ["trading_calendars/exchange_calendar_xbom.py: precomputed_bse_holidays", "trading_calendars/exchange_calendar_xkrx.py: precomputed_krx_holidays", "trading_calendars/exchange_calendar_xses.py: precomputed_ses_holidays", "trading_calendars/exchange_calendar_xshg.py: precomputed_shanghai_holidays", "trading_calendars/precomputed_trading_calendar.py: PrecomputedTradingCalendar"]}
{"id": "C92", "title": "Where the recorded dates end", "statement": "Movable feasts and single closures are recorded up to a last year, after which the calendars go on without them and without an error. From the year after it on (until 2200) the sessions of every calendar are exactly the weekdays that are no holiday of the yearly list and not off for a feast whose table goes on; the last year itself has such a recorded closure. The last years are 2020 for XBKK (all Buddhist holidays), XIDX and XKAR (all Islamic holidays), XKLS (Deepavali, Thaipusam, Wesak), XTAI (single closures) and ASEX (Orthodox Easter), 2019 for XPHS, 2026 for XHKG, 2006 for XIST; the Chinese new year and the other tables of lunisolar and Islamic feasts end with 2049 in XHKG, XTAI, XKLS, XIDX, XPHS and XIST. So from 2021 to 2049 XPHS, XIDX and XKAR are open on every weekday on which the repository's own table has Eid al-Fitr or Eid al-Adha (two coincide with another holiday), while XIST is closed.", "quantifier": "every calendar constructed over a range of midnights, every day of it in a year after the last recorded one and before 2201; every entry of the tables of Eid al-Fitr and Eid al-Adha", "why_tests_cant": "The recorded answers of the tests end before or with the tables; what the calendars say afterwards, for every later year, is not tested at all.", "anchors": ["trading_calendars/xbkk_holidays.py", "trading_calendars/exchange_calendar_xidx.py", "trading_calendars/exchange_calendar_xkar.py", "trading_calendars/xkls_holidays.py", "trading_calendars/exchange_calendar_xphs.py", "trading_calendars/exchange_calendar_xtai.py", "trading_calendars/exchange_calendar_xhkg.py", "trading_calendars/exchange_calendar_xist.py", "trading_calendars/exchange_calendar_asex.py", "trading_calendars/common_holidays.py: eid_al_fitr_first_day, eid_al_adha_first_day", "trading_calendars/lunisolar_holidays.py"]}
{"id": "C93", "title": "When the date of a minute names its session", "statement": "At every minute at which a market is open (breaks ignored), minute_to_session_label is the date on the clocks of its city; for CMES, IEPA and us_futures, whose sessions begin the evening before, it is the date on clocks set 6:59, 4:00 and 5:59 fast. It is also the date in UTC for 47 of the 51 markets from their first day on, but for XKRX only from 1988-10-09 on and for XTKS from 1951-09-09 on (those of 1988-06-01 of XKRX and of 1950-06-01 of XTKS, with clocks put forward, open on the day before in UTC). For XASX and XNZE the date of UTC twelve hours later is the label. Every session of CMES, us_futures and XNZE opens on the day before in UTC; so does that of 2019-10-16 of XASX, with the clocks of Sydney put forward. So truncating a minute to its UTC date finds the session for the other 47 markets only. In the 24/7 and 24/5 calendars the label of an open minute is the date of UTC, and 24/5 labels a minute of a weekend with the Monday after it.", "quantifier": "every calendar of the 51 market classes constructed over a range of midnights from the first supported day on, every open instant of it; and the same of the 24/7 and 24/5 calendars", "why_tests_cant": "The tests compare the label of a few minutes per calendar; that no offset of the zone's history moves an open minute to another date concerns all instants of all years.", "anchors": ["trading_calendars/trading_calendar.py: TradingCalendar.minute_to_session_label, is_open_on_minute", "trading_calendars/exchange_calendar_*.py: tz, open_times, close_times, open_offset"]}
{"id": "C94", "title": "How many sessions a month has and how near to its ends they are", "statement": "For each default calendar there is a table entry with the least and the greatest number of sessions of a calendar month, and with two numbers f and l such that every month has a session among its first f days and one among its last l days; none of the four numbers can be improved. The entry holds for all months of the years it names (from the default start to 2200, or the years of the recorded holidays; for ASEX from 2016 on). E.g. XNYS: 15 to 23 sessions, a session among the first four and one among the last four days; XSHG: 7 to 23, among the first 14 and the last 20 days, with 7 in February 1999. ASEX has no session at all in July 2015, so code that takes the first session of each month fails there. sessions_in_range over a month of any calendar constructed for a range with that month has such numbers and such members.", "quantifier": "all 53 default calendars, every start and end, every month of the named years inside the range", "why_tests_cant": "Tests look at single years; that no combination of holidays and weekends leaves a month with fewer sessions or a later first session concerns every month of two centuries and every calendar.", "anchors": ["trading_calendars/trading_calendar.py: TradingCalendar.sessions_in_range, TradingCalendar.__init__, _special_dates", "trading_calendars/exchange_calendar_*.py: regular_holidays, adhoc_holidays, weekmask", "trading_calendars/exchange_calendar_asex.py: debt_crisis"]}
{"id": "C95", "title": "The version that setup.py finds is the one its distributions have and report", "statement": "The version dictionary that setup.py writes into _version.py of a distribution or build is read back from there exactly, whatever characters it has; in the unpacked result setup.py finds it again, whatever git and the directories around it say, and so in everything that is made of that, any number of times. If its texts are plain (no quotation mark, backslash, control character, three apostrophes in a row or character beyond 65536), the package imported from there reports it. From a checkout, it is the version of the checkout (C68). With expanded keywords setup.py and the package in the tree find the same. Limits: a tag with a quotation mark, which git allows, gives a package that cannot be imported; and because .gitattributes names calendars/_version.py, which does not exist, `git archive` never expands the keywords, so without git setup.py takes the version from a directory trading_calendars-V (its parent, its grandparent) while the package imported from there says 0+unknown.", "quantifier": "all version dictionaries (all strings), all contents of _version.py with keywords, all answers of git, all directories, all chains of builds", "why_tests_cant": "The project has no test of it: whether each string that can be in a tag survives json, the literal of Python and the searches by regular expressions, in any tree and after any number of builds, is not a question about samples.", "anchors": ["versioneer.py: get_versions, write_to_version_file, versions_from_file, git_get_keywords, git_versions_from_keywords, SHORT_VERSION_PY", "trading_calendars/_version.py: get_versions, get_keywords", "trading_calendars/__init__.py: __version__", "setup.cfg: versioneer", ".gitattributes"]}
{"id": "C96", "title": "How many sessions a week has and which weeks have none", "statement": "For each default calendar there is a table entry with the least and the greatest number of sessions of a week from Monday to Sunday, neither of which can be improved, and with the exact list of the weeks without any session. The entry holds for all weeks within the years it names (from the default start to 2200, or the years of the recorded holidays). E.g. us_futures has 4 or 5 sessions in every week, XLON 2 to 5, XNYS 1 to 5 (one in the week of 10 September 2001); XTKS has none in the week of 29 April 2019, XSHG none in 37 weeks of 1999-2025, and XMOS, XTAI, XIDX, XIST, XKRX, XBUE, XKAR, XPHS and ASEX have such weeks too, so code that takes the first session of each week fails exactly there. sessions_in_range over a week of any calendar constructed for a range with that week has such a number of members, and is empty exactly for the listed weeks.", "quantifier": "all 53 default calendars, every start and end, every week of the named years inside the range", "why_tests_cant": "Tests look at single years; that no other week of two centuries is empty and that no week has fewer sessions concerns all combinations of holidays, weekends and lunar dates.", "anchors": ["trading_calendars/trading_calendar.py: TradingCalendar.sessions_in_range, TradingCalendar.__init__, _special_dates", "trading_calendars/exchange_calendar_*.py: regular_holidays, adhoc_holidays, weekmask"]}
{"id": "C97", "title": "Installing versioneer again changes nothing", "statement": "`python versioneer.py setup`, with a complete section in setup.cfg, writes the version file anew and only appends to __init__.py, MANIFEST.in and .gitattributes. If these files consist of complete lines, then afterwards the manifest includes versioneer.py, the version file and all it included before, .gitattributes marks the version file, __init__.py (if it exists) has the snippet, and a second run changes nothing. Without a line feed at the end the last line can be spoiled, but a third run never changes anything. With white space in the path of the version file every run makes the manifest longer.", "quantifier": "every content of the files, missing or not; every path of the version file; every template text", "why_tests_cant": "Whether a rerun finds what the last run wrote depends on the texts it appends to: endings without line feed, similar lines, words elsewhere; tests have a few such texts.", "anchors": ["versioneer.py: do_setup, do_vcs_install, INIT_PY_SNIPPET", "setup.cfg: versioneer", "MANIFEST.in", ".gitattributes"]}
{"id": "C98", "title": "How many early closes and how many minutes a year has", "statement": "For each of the 23 default calendars with early closes the least and the greatest number of early closes of a calendar year are known and both occur (CMES 6 and 8, XLON 1 and 2, XNYS 1 and 4, XSTO 3 and 5); early_closes of a calendar whose range covers the year with a day more before it and two after it lists exactly so many sessions of the year as the rules name. All other default calendars have no early close for any range. No default calendar has a late open for any range. For the 20 of these calendars whose full sessions have one length and whose early closes have one, minutes_count_for_sessions_in_range from January 1 to December 31 is the length of a full session times the other sessions plus the length of a short one times the early closes, and lies between the least and the greatest number of minutes of a year, which both occur (XLON 127530 and 129060). The same holds for XNYS from 1993 on, when early closes moved from two to one o'clock (96180 and 98520 minutes).", "quantifier": "all 53 default calendars, every start and end, every year from 1990 to 2200 (XHKG: 2049) inside the range", "why_tests_cant": "Tests compare early closes with a list for a few years; that no other year has more or fewer, that no rule for a weekday, an ad hoc list or a holiday hides one, and that a calendar never has one for any range concerns all years and ranges.", "anchors": ["trading_calendars/trading_calendar.py: TradingCalendar.early_closes, _calculate_special_closes, _special_dates, _overwrite_special_dates, minutes_count_for_sessions_in_range", "trading_calendars/exchange_calendar_*.py: special_closes, special_closes_adhoc, regular_early_close"]}
{"id": "C99", "title": "An early close on the last day of the range is lost", "statement": "A calendar of the library other than XNZE whose end is day d does not list d in early_closes, and minutes_for_session(d) has the full length, even if the rules name an early close for d (e.g. XNYS ending on 24 December 2019: 390 minutes). For these calendars and an end at a midnight, early_closes is exactly the set of the days of the range, without the last one, that have an early close by the rules. For all calendars, if the range has a day more before d and two more after it, early_closes contains d exactly if the rules name an early close for d, and minutes_for_session(d) has the short length then (210 minutes). So the same session has two different closes in two calendars of the same exchange, depending on the end alone. For XNZE, whose clocks are thirteen hours ahead around Christmas, it is the first day of the range whose early close is lost.", "quantifier": "all 53 default calendars, every start at a midnight, every end, every day", "why_tests_cant": "Tests construct each calendar for one range that does not end on an early close; the claim is about every pair of ranges and every zone offset.", "anchors": ["trading_calendars/trading_calendar.py: TradingCalendar._special_dates (line 1113), _calculate_special_closes, early_closes, minutes_for_session", "trading_calendars/exchange_calendar_*.py: special_closes, special_closes_adhoc, tz"]}
{"id": "C100", "title": "When `python versioneer.py setup` fails", "statement": "`python versioneer.py setup`, with a complete section in setup.cfg, ends with status 0 exactly if the texts `import versioneer`, `versioneer.get_cmdclass()` and `versioneer.get_version()` occur somewhere in setup.py and neither `versioneer.VCS` nor `versioneer.versionfile_source` does, and with status 1 otherwise; scan_setup_py counts one error for each of the two. Comments count, and more text never makes a use missing. A run that ends with status 1 has changed the files all the same: after setup.py is mended the next run ends with status 0 and changes nothing.", "quantifier": "every text of setup.py, every content of the other files, every path of the version file without white space", "why_tests_cant": "The scan goes line by line, while the claim is about the text as a whole; and what a failed run leaves behind depends on all the files.", "anchors": ["versioneer.py: scan_setup_py, do_setup, __main__ (lines 1779-1822)", "setup.py"]}
{"id": "C101", "title": "Setup without a complete section in setup.cfg, and what is read from a complete one", "statement": "Whatever is in setup.cfg, at most the first of any two runs of 'python versioneer.py setup' changes it: a run that changes it has appended the sample section, changed no other file and ended with status 1; if the file had no [DEFAULT] section the next run ends with status 1 again and changes nothing. A run that ends with status 1 or with an exception other than KeyError leaves all files of the project as they were; a VCS other than git raises KeyError after the version file has been emptied. A section in the layout of the documentation, appended to any readable file without that section and without [DEFAULT], or put before any other section of it, is read as exactly its values, except that a tag_prefix of two quotation marks is read as empty; of a section with VCS alone the style is read as empty and the rest as None; setup.cfg of this repository yields git, pep440, trading_calendars/_version.py, an empty tag prefix and trading_calendars-.", "quantifier": "every content of setup.cfg (also none) and of the other files, every six one-line values without white space at the ends and without per cent sign", "why_tests_cant": "There are no tests of versioneer in the repository; that the sample is never appended twice depends on how the parser reads it after an arbitrary text (continued values, comments, a missing final line feed).", "anchors": ["versioneer.py: get_config_from_root, do_setup, SAMPLE_CONFIG", "setup.cfg: [versioneer]"]}
