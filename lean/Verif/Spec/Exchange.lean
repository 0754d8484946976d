import Verif.Spec.Holiday
import Verif.Spec.Abstraction
import Verif.Model.Exchange

/-!
# Specification vocabulary for exchange calendars
-/

namespace TC.Spec

/-- On day `d` clocks in zone `z` read every time from 8:00 to 21:00 exactly once: daylight saving
starts and ends at night. -/
def DaytimeClear (z : Tz) (d : Int) : Prop :=
  ∀ t, hm 8 0 ≤ t → t ≤ hm 21 0 → ∃ u, OnlyInstant z (d * DAY + t) u

/-- Zone `z` suits exchange `x` on the range: well-behaved, no clock changes in daytime from the eve
of the range to its end and on the ad-hoc special days (which the constructor interprets whatever
the range), and the special times of the latter fall on the same day in UTC. -/
structure ZoneFits (x : Exchange) (z : Tz) (start stop : Int) : Prop where
  tame : Tame z
  clear : ∀ d, start - DAY ≤ d * DAY → d * DAY ≤ stop → DaytimeClear z d
  clearAdhoc : ∀ e ∈ x.specialClosesAdhoc, ∀ d ∈ e.2, DaytimeClear z d
  sameDay : ∀ e ∈ x.specialClosesAdhoc, ∀ d ∈ e.2, ∀ u, OnlyInstant z (d * DAY + e.1) u →
    d * DAY ≤ u ∧ u < d * DAY + DAY

/-- Day `d` is a trading day of exchange `x`: an enabled weekday, not an ad-hoc holiday, and, from
1970-01-01 to 2200-12-31 (days 0 to 84370), not a holiday by a regular rule. -/
def TradesOn (x : Exchange) (d : Int) : Prop :=
  (∃ w ∈ x.weekdays, IsWeekday d w) ∧ d ∉ x.adhoc ∧
  (0 ≤ d → d ≤ 84370 → ∀ r ∈ x.regular, ¬ IsHoliday r d)

/-- Day `d` has the special close `t` on exchange `x`. -/
def ClosesEarly (x : Exchange) (d t : Int) : Prop :=
  (∃ rules, (t, rules) ∈ x.specialCloses ∧ ∃ r ∈ rules, IsHoliday r d) ∨
  (∃ days, (t, days) ∈ x.specialClosesAdhoc ∧ d ∈ days)

/-- The session labelled `l` closes early at instant `u`: `u` is when clocks read an early closing time
of the day, and lies in the range of the calendar. -/
def EarlyClose (x : Exchange) (z : Tz) (start stop l u : Int) : Prop :=
  ∃ d t, l = d * DAY ∧ start ≤ l ∧ l ≤ stop ∧ ClosesEarly x d t ∧ OnlyInstant z (l + t) u ∧
    start ≤ u ∧ u ≤ stop

/-- Session `s` keeps the timetable of exchange `x`: it opens when clocks read the opening time in
effect; on an early close it ends at that instant, without break; otherwise it closes when clocks
read the closing time in effect, and has the break in effect (none if there is no break table). -/
structure KeepsTimes (x : Exchange) (z : Tz) (start stop : Int) (s : Session) : Prop where
  opens : ∃ t, TimeInEffect x.openTimes s.label t ∧
    OnlyInstant z (s.label + x.openOffset * DAY + t) s.open
  early : ∀ u, EarlyClose x z start stop s.label u → s.close = u ∧ s.brk = none
  closes : (∀ u, ¬ EarlyClose x z start stop s.label u) →
    ∃ t, TimeInEffect x.closeTimes s.label t ∧
      OnlyInstant z (s.label + x.closeOffset * DAY + t) s.close
  breaks : (∀ u, ¬ EarlyClose x z start stop s.label u) →
    ∀ bt et, x.breakStartTimes = some bt → x.breakEndTimes = some et →
      ∃ u v, s.brk = some (u, v) ∧
        (∃ t, TimeInEffect bt s.label t ∧ OnlyInstant z (s.label + t) u) ∧
        (∃ t, TimeInEffect et s.label t ∧ OnlyInstant z (s.label + t) v)
  noBreaks : x.breakStartTimes = none → s.brk = none

/-- What constructing the calendar of exchange `x` in zone `z` does for the range from `start` to
`stop`.  If the range contains a trading day and none of the days `bad`, it succeeds and yields a
non-empty list of ordered, non-overlapping sessions, labelled by exactly the trading days, that keep
the timetable, with `early_closes` listing exactly the early closes.  If the range contains a day of
`bad` whose special close is inside the range, or no trading day, it raises `ValueError`. -/
structure Builds (x : Exchange) (z : Tz) (bad : List Int) (start stop : Int) : Prop where
  succeeds : (∀ d ∈ bad, d * DAY < start ∨ stop < d * DAY) →
    (∃ d, start ≤ d * DAY ∧ d * DAY ≤ stop ∧ TradesOn x d) →
    ∃ b, build (x.config z) start stop = .ok b ∧
      ∃ ss, b.cal = Cal.ofSessions ss ∧ ss ≠ [] ∧ Regular ss ∧
        (∀ s ∈ ss, s.open < s.close) ∧
        (∀ l, l ∈ ss.map (·.label) ↔
          ∃ d, l = d * DAY ∧ start ≤ l ∧ l ≤ stop ∧ TradesOn x d) ∧
        (∀ s ∈ ss, KeepsTimes x z start stop s) ∧
        ∀ l, l ∈ b.earlyCloses ↔ ∃ u, EarlyClose x z start stop l u
  refuses : ∀ d ∈ bad, ∀ t u, ClosesEarly x d t → OnlyInstant z (d * DAY + t) u →
    start ≤ d * DAY → d * DAY ≤ stop → start ≤ u → u ≤ stop →
    build (x.config z) start stop = .error (.valueError "Special dates are not trading days.")
  empty : (∀ d, start ≤ d * DAY → d * DAY ≤ stop → ¬ TradesOn x d) →
    ∃ why, build (x.config z) start stop = .error (.valueError why)

/-- The calendar of exchange `x` can be constructed, apart from ranges with a day of `bad`, in every
suitable zone, for every range from a midnight on. -/
def Constructible (x : Exchange) (bad : List Int) : Prop :=
  ∀ z start stop, ZoneFits x z start stop → DAY ∣ start → NP_NAT + 3 * DAY ≤ start →
    Builds x z bad start stop

/-- The calendar of exchange `x` can be constructed in zone `z`, apart from ranges with a day of
`bad`, for every range from a midnight on or after day `first`. -/
def ConstructibleFrom (x : Exchange) (z : Tz) (first : Int) (bad : List Int) : Prop :=
  ∀ start stop, first * DAY ≤ start → DAY ∣ start → Builds x z bad start stop

end TC.Spec
