import Verif.Spec.Exchange

/-!
# Rule books

The documented holidays of some exchanges, in terms of dates alone.  `…Holiday y d` says that day `d` is
a holiday of year `y`; the lists are the documented single closures.
-/

namespace TC.Spec

/-- Month `m`, day `k` of year `y`; on a weekend, the Monday after. -/
def WeekendToMonday (y m k d : Int) : Prop :=
  (DayNumber ⟨y, m, k⟩ d ∧ ¬ IsWeekday d 5 ∧ ¬ IsWeekday d 6) ∨
  (IsWeekday d 0 ∧ (DayNumber ⟨y, m, k⟩ (d - 1) ∨ DayNumber ⟨y, m, k⟩ (d - 2)))

/-- Month `m`, day `k` of year `y`; on a weekend, the Friday before. -/
def WeekendToFriday (y m k d : Int) : Prop :=
  (DayNumber ⟨y, m, k⟩ d ∧ ¬ IsWeekday d 5 ∧ ¬ IsWeekday d 6) ∨
  (IsWeekday d 4 ∧ (DayNumber ⟨y, m, k⟩ (d + 1) ∨ DayNumber ⟨y, m, k⟩ (d + 2)))

/-- A Monday to Friday. -/
def Weekday (d : Int) : Prop := ∃ w, 0 ≤ w ∧ w ≤ 4 ∧ IsWeekday d w

/-- One of the dates. -/
def OnDates (l : List (Int × Int × Int)) (d : Int) : Prop :=
  ∃ e ∈ l, DayNumber ⟨e.1, e.2.1, e.2.2⟩ d

/-- The New York Stock Exchange from 1970 on (docstring of `XNYSExchangeCalendar`,
`exchange_calendar_xnys.py` lines 80-108): New Year, Martin Luther King day (1998 on), Washington's
birthday (February 22 until 1970, then third Monday of February), Good Friday, Memorial day (last
Monday of May, after 1970), Independence day, Labor day, Election day (1972, 1976 and 1980, the
Tuesday after the first Monday of November), Thanksgiving, Christmas. -/
def NewYorkHoliday (y d : Int) : Prop :=
  SundayToMonday y 1 1 d ∨
  (1998 ≤ y ∧ NthWeekday 3 0 y 1 d) ∨
  (y ≤ 1970 ∧ NearestWorkday y 2 22 d) ∨
  (1971 ≤ y ∧ NthWeekday 3 0 y 2 d) ∨
  EasterSunday y (d + 2) ∨
  (1971 ≤ y ∧ LastWeekday 0 y 5 d) ∨
  NearestWorkday y 7 4 d ∨
  NthWeekday 1 0 y 9 d ∨
  ((y = 1972 ∨ y = 1976 ∨ y = 1980) ∧ NthWeekday 1 0 y 11 (d - 1)) ∨
  NthWeekday 4 3 y 11 d ∨
  NearestWorkday y 12 25 d

/-- The single closures of New York, 1929 to 2018 (same docstring, lines 122-147; the first closure of
1968 is Lincoln's birthday, the last the Wednesday that was Christmas). -/
def newYorkClosures : List (Int × Int × Int) :=
  [(1929, 11, 1), (1929, 11, 29), (1933, 3, 6), (1933, 3, 7), (1933, 3, 8), (1933, 3, 9),
   (1933, 3, 10), (1933, 3, 13), (1933, 3, 14), (1945, 8, 15), (1945, 8, 16), (1945, 12, 24),
   (1956, 12, 24), (1958, 12, 26), (1961, 5, 29), (1963, 11, 25), (1968, 2, 12), (1968, 4, 9),
   (1968, 6, 12), (1968, 6, 19), (1968, 6, 26), (1968, 7, 5), (1968, 7, 10), (1968, 7, 17),
   (1968, 7, 24), (1968, 7, 31), (1968, 8, 7), (1968, 8, 14), (1968, 8, 21), (1968, 8, 28),
   (1968, 9, 11), (1968, 9, 18), (1968, 9, 25), (1968, 10, 2), (1968, 10, 9), (1968, 10, 16),
   (1968, 10, 23), (1968, 10, 30), (1968, 11, 11), (1968, 11, 20), (1968, 12, 4), (1968, 12, 11),
   (1968, 12, 18), (1968, 12, 25), (1969, 2, 10), (1969, 3, 31), (1969, 7, 21), (1972, 12, 28),
   (1973, 1, 25), (1977, 7, 14), (1985, 9, 27), (1994, 4, 27), (2001, 9, 11), (2001, 9, 12),
   (2001, 9, 13), (2001, 9, 14), (2004, 6, 11), (2007, 1, 2), (2012, 10, 29), (2012, 10, 30),
   (2018, 12, 5)]

/-- Days on which New York closes at 13:00: from 1995 on July 3 if a Monday, Tuesday or Thursday; July 5
if a Friday, until 2012; July 3 if a Wednesday, from 2013; from 1993 the day after Thanksgiving and
December 24 from Monday to Thursday; three single days. -/
def NewYork13 (y d : Int) : Prop :=
  (1995 ≤ y ∧ DayNumber ⟨y, 7, 3⟩ d ∧ (IsWeekday d 0 ∨ IsWeekday d 1 ∨ IsWeekday d 3)) ∨
  (1995 ≤ y ∧ y ≤ 2012 ∧ DayNumber ⟨y, 7, 5⟩ d ∧ IsWeekday d 4) ∨
  (2013 ≤ y ∧ DayNumber ⟨y, 7, 3⟩ d ∧ IsWeekday d 2) ∨
  (1993 ≤ y ∧ NthWeekday 4 3 y 11 (d - 1)) ∨
  (1993 ≤ y ∧ DayNumber ⟨y, 12, 24⟩ d ∧ (∃ w, 0 ≤ w ∧ w ≤ 3 ∧ IsWeekday d w)) ∨
  (OnDates [(1997, 12, 26), (1999, 12, 31), (2003, 12, 26)] d ∧ InYear d y)

/-- Days on which New York closes at 14:00: before 1993, December 24 from Monday to Thursday, and the day
after Thanksgiving in 1992. -/
def NewYork14 (y d : Int) : Prop :=
  (y ≤ 1992 ∧ DayNumber ⟨y, 12, 24⟩ d ∧ (∃ w, 0 ≤ w ∧ w ≤ 3 ∧ IsWeekday d w)) ∨
  (y = 1992 ∧ NthWeekday 4 3 y 11 (d - 1))

/-- The London Stock Exchange (comments of `exchange_calendar_xlon.py`, lines 41-152): New Year (made up
on Monday), Good Friday, Easter Monday, the first Monday of May except 1995 and 2020, the last Monday
of May except 2002 and 2012, the last Monday of August, Christmas and Boxing day, made up on December
27 and 28 if they fall on a weekend. -/
def LondonHoliday (y d : Int) : Prop :=
  WeekendToMonday y 1 1 d ∨
  EasterSunday y (d + 2) ∨
  EasterSunday y (d - 1) ∨
  (y ≠ 1995 ∧ y ≠ 2020 ∧ NthWeekday 1 0 y 5 d) ∨
  (y ≠ 2002 ∧ y ≠ 2012 ∧ LastWeekday 0 y 5 d) ∨
  LastWeekday 0 y 8 d ∨
  DayNumber ⟨y, 12, 25⟩ d ∨
  DayNumber ⟨y, 12, 26⟩ d ∨
  (DayNumber ⟨y, 12, 27⟩ d ∧ ∃ c, DayNumber ⟨y, 12, 25⟩ c ∧ (IsWeekday c 5 ∨ IsWeekday c 6)) ∨
  (DayNumber ⟨y, 12, 28⟩ d ∧ ∃ b, DayNumber ⟨y, 12, 26⟩ b ∧ (IsWeekday b 5 ∨ IsWeekday b 6))

/-- The single closures of London. -/
def londonClosures : List (Int × Int × Int) :=
  [(1973, 11, 14), (1977, 6, 7), (1981, 7, 29), (1995, 5, 8), (1999, 12, 31), (2002, 6, 3),
   (2002, 6, 4), (2011, 4, 29), (2012, 6, 4), (2012, 6, 5), (2020, 5, 8)]

/-- Days on which London closes at 12:30: December 24 and, other than in 1999, December 31, or the
Friday before if they fall on a weekend. -/
def LondonEarly (y d : Int) : Prop :=
  WeekendToFriday y 12 24 d ∨ (y ≠ 1999 ∧ WeekendToFriday y 12 31 d)

/-- Euronext Amsterdam (docstring of `XAMSExchangeCalendar`, `exchange_calendar_xams.py` lines 60-82):
New Year, Good Friday, Easter Monday, May 1, Christmas, Boxing day; until 2001 also Whit Monday, April
30 and December 31, until 2000 Ascension day. -/
def AmsterdamHoliday (y d : Int) : Prop :=
  DayNumber ⟨y, 1, 1⟩ d ∨
  EasterSunday y (d + 2) ∨
  EasterSunday y (d - 1) ∨
  (y ≤ 2000 ∧ EasterSunday y (d - 39)) ∨
  (y ≤ 2001 ∧ EasterSunday y (d - 50)) ∨
  (y ≤ 2001 ∧ DayNumber ⟨y, 4, 30⟩ d) ∨
  DayNumber ⟨y, 5, 1⟩ d ∨
  DayNumber ⟨y, 12, 25⟩ d ∨
  DayNumber ⟨y, 12, 26⟩ d ∨
  (y ≤ 2001 ∧ DayNumber ⟨y, 12, 31⟩ d)

/-- The Chicago Mercantile Exchange from 1970 on (docstring of `CMESExchangeCalendar`,
`exchange_calendar_cmes.py` lines 44-53): New Year, Good Friday, Christmas. -/
def ChicagoHoliday (y d : Int) : Prop :=
  SundayToMonday y 1 1 d ∨ EasterSunday y (d + 2) ∨ NearestWorkday y 12 25 d

/-- National days of mourning (`us_holidays.py` lines 379-389): the funerals of John F. Kennedy, Martin
Luther King, Eisenhower, Truman, Lyndon B. Johnson, Nixon, Reagan, Ford and George H. W. Bush. -/
def daysOfMourning : List (Int × Int × Int) :=
  [(1963, 11, 25), (1968, 4, 9), (1969, 3, 31), (1972, 12, 28), (1973, 1, 25), (1994, 4, 27),
   (2004, 6, 11), (2007, 1, 2), (2018, 12, 5)]

/-- However the calendar of exchange `x` was constructed, its sessions inside the window in which
regular holidays apply (1970-01-01 to 2200-12-31, days 0 to 84370) are exactly the Mondays to Fridays
that are neither single closures nor holidays of the rule book `holiday`. -/
def FollowsBook (x : Exchange) (holiday : Int → Int → Prop) (closures : List (Int × Int × Int)) :
    Prop :=
  ∀ z start stop b, build (x.config z) start stop = .ok b → DAY ∣ start →
    ∀ d, start ≤ d * DAY → d * DAY ≤ stop → 0 ≤ d → d ≤ 84370 →
      (d * DAY ∈ b.cal.sessions ↔
        Weekday d ∧ ¬ OnDates closures d ∧ ∀ y, ¬ holiday y d)

/-- Day `d` is no session of any calendar of `x` over a range of midnights containing it. -/
def ClosedOn (x : Exchange) (d : Int) : Prop :=
  ∀ z start stop b, build (x.config z) start stop = .ok b → DAY ∣ start →
    start ≤ d * DAY → d * DAY ≤ stop → d * DAY ∉ b.cal.sessions

/-- Day `d` is a session of every calendar of `x` over a range of midnights containing it. -/
def OpenOn (x : Exchange) (d : Int) : Prop :=
  ∀ z start stop b, build (x.config z) start stop = .ok b → DAY ∣ start →
    start ≤ d * DAY → d * DAY ≤ stop → d * DAY ∈ b.cal.sessions

end TC.Spec
