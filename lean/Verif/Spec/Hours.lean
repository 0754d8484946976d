import Verif.Spec.Feasts
import Verif.Spec.Exchange

/-!
# Trading hours

The documented hours and early closes of the exchanges, and what it means for a calendar to keep them.
-/

namespace TC.Spec

/-- The timetable of an exchange.  Times count from midnight of the day of the session in local time (so
a session that opens the evening before opens at a negative time). -/
structure Timetable where
  /-- the session of the day opens at that time -/
  opens : Int → Int → Prop
  /-- it closes at that time, if it does not close early -/
  closes : Int → Int → Prop
  /-- the daily break, if there is one -/
  breaks : Option (Int × Int) := none
  /-- the day has that early close -/
  early : Int → Int → Prop := fun _ _ => False

/-- The session of day `d` closes early at instant `u`, which lies in the range of the calendar. -/
def Timetable.EarlyAt (T : Timetable) (z : Tz) (start stop d u : Int) : Prop :=
  ∃ t, T.early d t ∧ OnlyInstant z (d * DAY + t) u ∧ start ≤ u ∧ u ≤ stop

/-- Session `s` is that of day `d` by the timetable. -/
structure KeepsDay (T : Timetable) (z : Tz) (start stop d : Int) (s : Session) : Prop where
  label : s.label = d * DAY
  opens : ∃ t, T.opens d t ∧ OnlyInstant z (d * DAY + t) s.open
  early : ∀ u, T.EarlyAt z start stop d u → s.close = u ∧ s.brk = none
  closes : (∀ u, ¬ T.EarlyAt z start stop d u) → ∃ t, T.closes d t ∧ OnlyInstant z (d * DAY + t) s.close
  breaks : (∀ u, ¬ T.EarlyAt z start stop d u) → ∀ p, T.breaks = some p →
    ∃ u v, s.brk = some (u, v) ∧ OnlyInstant z (d * DAY + p.1) u ∧ OnlyInstant z (d * DAY + p.2) v
  noBreak : T.breaks = none → s.brk = none

/-- Every calendar of exchange `x` in zone `z` that was built for a range from day `first` on, without
the days `bad`, keeps the timetable, and its `early_closes` are exactly the days in its range with an
early close in its range. -/
def KeepsHours (x : Exchange) (z : Tz) (first : Int) (bad : List Int) (T : Timetable) : Prop :=
  ∀ start stop b, first * DAY ≤ start → DAY ∣ start → (∀ d ∈ bad, d * DAY < start ∨ stop < d * DAY) →
    build (x.config z) start stop = .ok b →
      (∃ ss, b.cal = Cal.ofSessions ss ∧ ∀ s ∈ ss, ∃ d, KeepsDay T z start stop d s) ∧
      ∀ l, l ∈ b.earlyCloses ↔
        ∃ d u, l = d * DAY ∧ start ≤ l ∧ l ≤ stop ∧ T.EarlyAt z start stop d u

/-- A case: the calendar of exchange `x` in zone `z` for the year 2019 can be built and has a session of
day `d` that opens at instant `u`. -/
def OpensAt (x : Exchange) (z : Tz) (d u : Int) : Prop :=
  ∃ b ss s, build (x.config z) (dayOf 2019 1 1 * DAY) (dayOf 2019 12 31 * DAY) = .ok b ∧
    b.cal = Cal.ofSessions ss ∧ s ∈ ss ∧ s.label = d * DAY ∧ s.open = u

namespace Hours
open Books

/-- The same time every day. -/
def always (t : Int) (_ u : Int) : Prop := u = t

/-- Time `t` before the date, `t'` from it on. -/
def changed (y m k : Int) (t t' : Int) (d u : Int) : Prop :=
  ∃ c, DayNumber ⟨y, m, k⟩ c ∧ (d < c ∧ u = t ∨ c ≤ d ∧ u = t')

/-- From `o` to `c` every day, with early closes. -/
def daily (o c : Int) (early : Int → Int → Prop := fun _ _ => False) : Timetable :=
  { opens := always o, closes := always c, early }

/-! ### Early closes

Those of Hong Kong, Istanbul and Kuala Lumpur are in `Spec.Feasts`. -/

/-- Amsterdam, Brussels, Paris (`exchange_calendar_xams.py` lines 116-123, `exchange_calendar_xbru.py`
lines 116-123, `exchange_calendar_xpar.py` lines 113-120): Christmas eve, and from 2002 on New Year's eve. -/
def euronextEarly : List (Int × Book) :=
  [(hm 14 5, [every (.dateIf 12 24 weekdays), since 2002 (.dateIf 12 31 weekdays)])]

/-- Sydney (`exchange_calendar_xasx.py` lines 181-191): the last trading day before Christmas and New
Year, from 2010 on. -/
def sydneyEarly : List (Int × Book) :=
  [(hm 14 10, [since 2010 (.moved 12 24 weekendToFriday), since 2010 (.moved 12 31 weekendToFriday)])]

/-- Dublin (`exchange_calendar_xdub.py` lines 160-170): the same days at 12:28. -/
def dublinEarly : List (Int × Book) :=
  [(hm 12 28, [since 2010 (.moved 12 24 weekendToFriday), since 2010 (.moved 12 31 weekendToFriday)])]

/-- The snow of March 1, 2018 (`exchange_calendar_xdub.py` lines 172-174). -/
def dublinSingle : List (Int × List (Int × Int × Int)) := [(hm 12 28, [(2018, 3, 1)])]

/-- Buenos Aires (`exchange_calendar_xbue.py` lines 363-373): the eves of Christmas and New Year, but in
2018 those were holidays. -/
def buenosAiresEarly : List (Int × Book) :=
  [(hm 13 0, [{ day := .dateIf 12 24 weekdays, but := [2018] },
              { day := .dateIf 12 31 weekdays, but := [2018] }])]

/-- CBOE futures (`exchange_calendar_xcbf.py` lines 94-101): the day after Thanksgiving, from 1993 on. -/
def cboeEarly : List (Int × Book) := [(hm 12 15, [since 1993 (.nthPlus 4 3 11 1)])]

/-- The US holidays on which futures trade until noon or one o'clock: Martin Luther King day from 1998
on, Presidents' day, Memorial day from 1971 on, Independence day from 1954 on, Labor day and
Thanksgiving. -/
def usHalfDays : Book :=
  [since 1998 (.nth 3 0 1), every (.nth 3 0 2), since 1971 (.last 0 5),
   since 1954 (.moved 7 4 nearestWeekday), every (.nth 1 0 9), every (.nth 4 3 11)]

/-- CME (`exchange_calendar_cmes.py` lines 93-108): those, the day after Thanksgiving from 1993 on, and
Christmas eve from Monday to Thursday. -/
def cmeEarly : List (Int × Book) :=
  [(hm 12 0, usHalfDays ++ [since 1993 (.nthPlus 4 3 11 1), every (.dateIf 12 24 [0, 1, 2, 3])])]

/-- ICE US (`exchange_calendar_iepa.py` lines 50-61). -/
def iceEarly : List (Int × Book) := [(hm 13 0, usHalfDays)]

/-- Xetra and Frankfurt (`exchange_calendar_xetr.py` lines 143-149, `exchange_calendar_xfra.py` lines
142-148): the last trading day of the year, from 2010 on. -/
def xetraEarly : List (Int × Book) := [(hm 14 0, [since 2010 (.moved 12 31 weekdayBefore)])]
def frankfurtEarly : List (Int × Book) := [(hm 12 30, [since 2010 (.moved 12 31 weekdayBefore)])]

/-- Lisbon (`exchange_calendar_xlis.py` lines 164-171): Christmas eve from 2003 on, New Year's eve. -/
def lisbonEarly : List (Int × Book) :=
  [(hm 13 5, [since 2003 (.dateIf 12 24 weekdays), every (.dateIf 12 31 weekdays)])]

/-- London (`exchange_calendar_xlon.py` lines 238-246): the last trading days before Christmas and New
Year, but not before New Year 2000. -/
def londonEarly : List (Int × Book) :=
  [(hm 12 30, [every (.moved 12 24 weekendToFriday),
               { day := .moved 12 31 weekendToFriday, but := [1999] }])]

/-- Madrid (`exchange_calendar_xmad.py` lines 147-157): the eves of Christmas and New Year, from 2012 on. -/
def madridEarly : List (Int × Book) :=
  [(hm 14 0, [since 2012 (.dateIf 12 24 weekdays), since 2012 (.dateIf 12 31 weekdays)])]

/-- New York (`exchange_calendar_xnys.py` lines 220-241): from 1993 on at 13:00 on the
day after Thanksgiving and on Christmas eve from Monday to Thursday; from 1995 on July 3 on Monday,
Tuesday or Thursday; July 5, 1995 to 2012, on Friday; from 2013 on July 3 on Wednesday.  Before 1993, at
14:00, on Christmas eve, and the day after Thanksgiving in 1992. -/
def newYorkEarly : List (Int × Book) :=
  [(hm 13 0, [since 1995 (.dateIf 7 3 [0, 1, 3]), between 1995 2012 (.dateIf 7 5 [4]),
      since 2013 (.dateIf 7 3 [2]), since 1993 (.nthPlus 4 3 11 1),
      since 1993 (.dateIf 12 24 [0, 1, 2, 3])]),
   (hm 14 0, [until' 1992 (.dateIf 12 24 [0, 1, 2, 3]), between 1992 1992 (.nthPlus 4 3 11 1)])]

/-- Single early closes of New York (`exchange_calendar_xnys.py` lines 243-252). -/
def newYorkSingle : List (Int × List (Int × Int × Int)) :=
  [(hm 13 0, [(1997, 12, 26), (1999, 12, 31), (2003, 12, 26)])]

/-- Wellington (`exchange_calendar_xnze.py` lines 199-209): the last trading days before Christmas, from
2011 on, and before New Year, from New Year 2012 on. -/
def wellingtonEarly : List (Int × Book) :=
  [(hm 12 45, [since 2011 (.moved 12 25 weekdayBefore), since 2012 (.moved 1 1 weekdayBefore)])]

/-- Oslo (`exchange_calendar_xosl.py` lines 104-106): Wednesday before Easter, from 2011 on. -/
def osloEarly : List (Int × Book) := [(hm 13 0, [since 2011 (.easter (-4))])]

/-- Santiago (`exchange_calendar_xsgo.py` lines 258-269): at 12:30 on December 24 and 30; at
13:30 on Maundy Thursday and on September 17 from Tuesday to Friday, except 2010. -/
def santiagoEarly : List (Int × Book) :=
  [(hm 12 30, [every (.dateIf 12 24 weekdays), every (.dateIf 12 30 weekdays)]),
   (hm 13 30, [every Books.maundyThursday, { day := .dateIf 9 17 [1, 2, 3, 4], but := [2010] }])]

/-- Stockholm (`exchange_calendar_xsto.py` lines 150-163): the eves of Epiphany, Good Friday, Labour day
and Ascension, and the Friday before All Saints' day, which is October 30 or later. -/
def stockholmEarly : List (Int × Book) :=
  [(hm 13 0, [every (.dateIf 1 5 weekdays), every Books.maundyThursday, every (.dateIf 4 30 weekdays),
      every (.easter 38), every (.onOrAfter 4 10 30)])]

/-- Toronto (`exchange_calendar_xtse.py` lines 166-172): Christmas eve, from 2010 on. -/
def torontoEarly : List (Int × Book) := [(hm 13 0, [since 2010 (.dateIf 12 24 weekdays)])]

/-! ### Hours

By the class comments, which give the opening a minute before the first trading minute that calendars
report, so a minute is added here. -/

/-- Athens (`exchange_calendar_asex.py` lines 96-98). -/
def athens : Timetable :=
  { opens := always (hm 10 1), closes := changed 2008 9 29 (hm 17 0) (hm 17 20) }

/-- São Paulo (`exchange_calendar_bvmf.py` lines 160-163). -/
def saoPaulo : Timetable :=
  { opens := always (hm 10 1), closes := changed 2019 11 4 (hm 17 0) (hm 18 0) }

/-- CME (`exchange_calendar_cmes.py` lines 47-48): from five in the afternoon of the day before. -/
def cme : Timetable := daily (hm 17 1 - DAY) (hm 17 0) (EarlyByBook cmeEarly [])

/-- ICE US (`exchange_calendar_iepa.py` lines 29-30): from eight in the evening of the day before. -/
def ice : Timetable := daily (hm 20 1 - DAY) (hm 18 0) (EarlyByBook iceEarly [])

/-- US futures (`us_futures_calendar.py` lines 33-34): from six in the evening of the day before. -/
def usFutures : Timetable := daily (hm 18 1 - DAY) (hm 18 0)

/-- Hong Kong (`exchange_calendar_xhkg.py` lines 248-250), from 10:00 until March 2011 (lines 277-281). -/
def hongKong : Timetable :=
  { opens := changed 2011 3 7 (hm 10 1) (hm 9 31), closes := always (hm 16 0),
    breaks := some (hm 12 1, hm 13 0), early := EarlyForFeasts hongKongEarly hongKongEves [] }

/-- Santiago (`exchange_calendar_xsgo.py` lines 173-175): closing at four from March to October, at five
otherwise; but only from 1980 to 2049, at five all year before and after. -/
def santiago : Timetable :=
  { opens := always (hm 9 31)
    closes := fun d t => ∃ y m k, DayNumber ⟨y, m, k⟩ d ∧
      (1980 ≤ y ∧ y < 2050 ∧ 3 ≤ m ∧ m ≤ 10 → t = hm 16 0) ∧
      (¬ (1980 ≤ y ∧ y < 2050 ∧ 3 ≤ m ∧ m ≤ 10) → t = hm 17 0)
    early := EarlyByBook santiagoEarly [] }

end Hours

end TC.Spec
