import Verif.Spec.Calendar
import Verif.Spec.TimeZone
import Verif.Model.Build

/-!
# Specification vocabulary for calendar construction

Stated over what a calendar class configures (`Config`), without the construction's steps.
-/

namespace TC.Spec

/-- Day number `d` (days since Thursday 1970-01-01) falls on weekday `w` (0 = Monday ... 6 = Sunday):
it is a whole number of weeks away from day `w - 3`. -/
def IsWeekday (d w : Int) : Prop := 0 ≤ w ∧ w ≤ 6 ∧ ∃ k, d = (w - 3) + 7 * k

/-- Day number `d` (days since 1970-01-01) is a trading day: its weekday is enabled, and it is
neither an ad-hoc nor a regular holiday.  Regular holidays are those the holiday calendar yields for
days 0 to 84370 (1970-01-01 to 2200-12-31, pandas' default window). -/
def TradingDay (cfg : Config) (d : Int) : Prop :=
  (∃ w, IsWeekday d w ∧ cfg.weekmask w = true) ∧
  (∀ h ∈ cfg.adhocHolidays, h / DAY ≠ d) ∧
  ∀ cal, cfg.regularHolidays = some cal → ∀ h ∈ cal 0 (84370 * DAY), h / DAY ≠ d

/-- `t` is the time of day the table prescribes on date `d`: that of the last entry in effect. -/
def TimeInEffect (table : TimeTable) (d t : Int) : Prop :=
  ∃ before s after, table = before ++ (s, t) :: after ∧ (∀ x, s = some x → x ≤ d) ∧
    ∀ e ∈ after, ∃ x, e.1 = some x ∧ d < x

/-- A valid table: the first entry has no start date, the others have increasing start dates. -/
def ValidTable (table : TimeTable) : Prop :=
  ∃ t rest, table = (none, t) :: rest ∧ (∀ e ∈ rest, e.1.isSome) ∧
    rest.Pairwise (fun e e' => ∀ x x', e.1 = some x → e'.1 = some x' → x < x')

/-- `u` is the instant at which clocks in the calendar's zone read the time of day prescribed by
`table` for session `label`, on the session's date shifted by `offset` days. -/
def StandardTime (z : Tz) (table : TimeTable) (offset label u : Int) : Prop :=
  ∃ t, TimeInEffect table label t ∧ OnlyInstant z (label + offset * DAY + t) u

/-- `t` is a special time of day configured for date `label`, by a rule or ad hoc. -/
def SpecialTime (rules : List (Int × HolidayFn)) (adHoc : List (Int × List Int))
    (start stop label t : Int) : Prop :=
  (∃ cal, (t, cal) ∈ rules ∧ label ∈ cal start stop) ∨
  (∃ dates, (t, dates) ∈ adHoc ∧ label ∈ dates)

/-- Date `label` has a special time whose instant is `u`, and `u` lies in the requested range. -/
def Applied (z : Tz) (rules : List (Int × HolidayFn)) (adHoc : List (Int × List Int))
    (start stop label u : Int) : Prop :=
  ∃ t, SpecialTime rules adHoc start stop label t ∧ OnlyInstant z (label + t) u ∧
    start ≤ u ∧ u ≤ stop

/-- The applied special open of `label`. -/
def SpecialOpen (cfg : Config) (start stop label u : Int) : Prop :=
  Applied cfg.tz cfg.specialOpens cfg.specialOpensAdhoc start stop label u

/-- The applied special close of `label`. -/
def SpecialClose (cfg : Config) (start stop label u : Int) : Prop :=
  Applied cfg.tz cfg.specialCloses cfg.specialClosesAdhoc start stop label u

/-- A wall-clock time, in nanoseconds relative to the session's midnight, at which some session may
open: a standard time shifted by the offset, or a special one. -/
def OpenWall (cfg : Config) (o : Int) : Prop :=
  (∃ e ∈ cfg.openTimes, o = cfg.openOffset * DAY + e.2) ∨
  (∃ e ∈ cfg.specialOpens, o = e.1) ∨ (∃ e ∈ cfg.specialOpensAdhoc, o = e.1)

/-- A standard closing time relative to the session's midnight. -/
def StandardCloseWall (cfg : Config) (c : Int) : Prop :=
  ∃ e ∈ cfg.closeTimes, c = cfg.closeOffset * DAY + e.2

/-- A closing time, standard or special, relative to the session's midnight. -/
def CloseWall (cfg : Config) (c : Int) : Prop :=
  StandardCloseWall cfg c ∨ (∃ e ∈ cfg.specialCloses, c = e.1) ∨
  (∃ e ∈ cfg.specialClosesAdhoc, c = e.1)

/-- A break start relative to the session's midnight. -/
def BreakStartWall (cfg : Config) (b : Int) : Prop :=
  ∃ table, cfg.breakStartTimes = some table ∧ ∃ e ∈ table, b = e.2

/-- A break end relative to the session's midnight. -/
def BreakEndWall (cfg : Config) (b : Int) : Prop :=
  ∃ table, cfg.breakEndTimes = some table ∧ ∃ e ∈ table, b = e.2

/-- A configuration whose wall-clock times are ordered: every open is before every close and every
break, breaks are inside, and a session closes less than a day after the earliest open, so before
the next session opens. -/
structure Ordered (cfg : Config) : Prop where
  openTable : ValidTable cfg.openTimes
  closeTable : ValidTable cfg.closeTimes
  breakStartTable : ∀ table, cfg.breakStartTimes = some table → ValidTable table
  breakEndTable : ∀ table, cfg.breakEndTimes = some table → ValidTable table
  openLow : ∀ o, OpenWall cfg o → -DAY ≤ o
  openClose : ∀ o c, OpenWall cfg o → CloseWall cfg c → o < c ∧ c < o + DAY
  openBreak : ∀ o b, OpenWall cfg o → BreakStartWall cfg b ∨ BreakEndWall cfg b → o < b
  breaks : ∀ b e, BreakStartWall cfg b → BreakEndWall cfg e → b < e
  breakClose : ∀ e c, BreakEndWall cfg e → StandardCloseWall cfg c → e ≤ c

/-- All configured times of day are whole minutes. -/
structure WholeMinuteTimes (cfg : Config) : Prop where
  opens : ∀ o, OpenWall cfg o → MINUTE ∣ o
  closes : ∀ c, CloseWall cfg c → MINUTE ∣ c
  breakStarts : ∀ b, BreakStartWall cfg b → MINUTE ∣ b
  breakEnds : ∀ b, BreakEndWall cfg b → MINUTE ∣ b

/-- A well-behaved zone, valid tables, a start not at the very beginning of representable time, and break times
that are times of day. -/
structure TablesFit (cfg : Config) (start : Int) : Prop where
  tz : Tame cfg.tz
  openTable : ValidTable cfg.openTimes
  closeTable : ValidTable cfg.closeTimes
  breakStartTable : ∀ table, cfg.breakStartTimes = some table → ValidTable table
  breakEndTable : ∀ table, cfg.breakEndTimes = some table → ValidTable table
  low : NP_NAT + 3 * DAY ≤ start
  breakStartLow : ∀ b, BreakStartWall cfg b → -DAY ≤ b
  breakEndLow : ∀ b, BreakEndWall cfg b → -DAY ≤ b

/-- What most theorems about construction assume: the tables fit and the start is a midnight. -/
structure WellFormed (cfg : Config) (start : Int) : Prop extends TablesFit cfg start where
  midnight : DAY ∣ start

/-- Session label `l` of the requested range: the midnight of a trading day in it. -/
def SessionLabel (cfg : Config) (start stop l : Int) : Prop :=
  ∃ d, l = d * DAY ∧ start ≤ l ∧ l ≤ stop ∧ TradingDay cfg d

/-- Every clock reading the construction has to interpret names exactly one instant, and break
starts and break ends are configured together. -/
structure Readable (cfg : Config) (start stop : Int) : Prop where
  opens : ∀ l t, SessionLabel cfg start stop l → TimeInEffect cfg.openTimes l t →
    ∃ u, OnlyInstant cfg.tz (l + cfg.openOffset * DAY + t) u
  closes : ∀ l t, SessionLabel cfg start stop l → TimeInEffect cfg.closeTimes l t →
    ∃ u, OnlyInstant cfg.tz (l + cfg.closeOffset * DAY + t) u
  breakStarts : ∀ l t table, SessionLabel cfg start stop l → cfg.breakStartTimes = some table →
    TimeInEffect table l t → ∃ u, OnlyInstant cfg.tz (l + 0 * DAY + t) u
  breakEnds : ∀ l t table, SessionLabel cfg start stop l → cfg.breakEndTimes = some table →
    TimeInEffect table l t → ∃ u, OnlyInstant cfg.tz (l + 0 * DAY + t) u
  specialOpens : ∀ l t, SpecialTime cfg.specialOpens cfg.specialOpensAdhoc start stop l t →
    ∃ u, OnlyInstant cfg.tz (l + t) u
  specialCloses : ∀ l t, SpecialTime cfg.specialCloses cfg.specialClosesAdhoc start stop l t →
    ∃ u, OnlyInstant cfg.tz (l + t) u
  paired : cfg.breakStartTimes.isSome ↔ cfg.breakEndTimes.isSome

/-- The special times are consistent: each applied one names a session, and no session has two. -/
structure SpecialsFit (cfg : Config) (start stop : Int) : Prop where
  sessions : ∀ l u, SpecialOpen cfg start stop l u ∨ SpecialClose cfg start stop l u →
    SessionLabel cfg start stop l
  openUnique : ∀ l u u', SpecialOpen cfg start stop l u → SpecialOpen cfg start stop l u' → u = u'
  closeUnique : ∀ l u u', SpecialClose cfg start stop l u → SpecialClose cfg start stop l u' →
    u = u'

end TC.Spec
