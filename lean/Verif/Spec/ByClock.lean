import Verif.Spec.Hours

/-!
# The answers of a calendar, by the clock

When a market is open, and when it opens and closes next, in terms of its trading days, its timetable and
the reading of the clocks in its city: without sessions, columns or instants other than those asked for.
-/

namespace TC.Spec

/-- By the timetable, day `d` ends at local time `t`: the early closing time if there is one that falls in
the range of the calendar, the closing time otherwise. -/
def Timetable.EndsAt (T : Timetable) (z : Tz) (start stop d t : Int) : Prop :=
  (T.early d t ∧ ∃ u, OnlyInstant z (d * DAY + t) u ∧ start ≤ u ∧ u ≤ stop) ∨
  ((∀ u, ¬ T.EarlyAt z start stop d u) ∧ T.closes d t)

/-- Day `d` is a trading day of exchange `x` in the range. -/
def TradesIn (x : Exchange) (start stop d : Int) : Prop :=
  start ≤ d * DAY ∧ d * DAY ≤ stop ∧ TradesOn x d

/-- When clocks read `w`, it is between the opening and the end of trading day `d`, both included. -/
def HoursOn (x : Exchange) (z : Tz) (T : Timetable) (start stop w d : Int) : Prop :=
  TradesIn x start stop d ∧ (∃ o, T.opens d o ∧ d * DAY + o ≤ w) ∧
    ∃ c, T.EndsAt z start stop d c ∧ w ≤ d * DAY + c

/-- When clocks read `w`, day `d` has its break: its start included, its end excluded; days that end early
have none. -/
def BreakOn (z : Tz) (T : Timetable) (start stop w d : Int) : Prop :=
  (∀ u, ¬ T.EarlyAt z start stop d u) ∧
    ∃ p, T.breaks = some p ∧ d * DAY + p.1 ≤ w ∧ w < d * DAY + p.2

/-- The clock readings at which some trading day opens. -/
def OpenReading (x : Exchange) (T : Timetable) (start stop w : Int) : Prop :=
  ∃ d o, TradesIn x start stop d ∧ T.opens d o ∧ w = d * DAY + o

/-- The clock readings at which some trading day ends. -/
def CloseReading (x : Exchange) (z : Tz) (T : Timetable) (start stop w : Int) : Prop :=
  ∃ d c, TradesIn x start stop d ∧ T.EndsAt z start stop d c ∧ w = d * DAY + c

/-- `u` is the instant of the first reading of `P` after reading `w`. -/
def NextReading (z : Tz) (P : Int → Prop) (w u : Int) : Prop :=
  ∃ w', P w' ∧ w < w' ∧ (∀ w'', P w'' → w < w'' → w' ≤ w'') ∧ OnlyInstant z w' u

/-- `u` is the instant of the last reading of `P` before reading `w`. -/
def PreviousReading (z : Tz) (P : Int → Prop) (w u : Int) : Prop :=
  ∃ w', P w' ∧ w' < w ∧ (∀ w'', P w'' → w'' < w → w'' ≤ w') ∧ OnlyInstant z w' u

/-- The answers of calendar `c` at instant `t`, when clocks read `w`. -/
structure AnswersByClock (x : Exchange) (z : Tz) (T : Timetable) (start stop : Int) (c : Cal)
    (t w : Int) : Prop where
  isOpen : ∃ r, c.isOpenOnMinute t = .ok r ∧
    (r = true ↔ ∃ d, HoursOn x z T start stop w d ∧ ¬ BreakOn z T start stop w d)
  isOpenIgnoringBreaks : ∃ r, c.isOpenOnMinute t true = .ok r ∧
    (r = true ↔ ∃ d, HoursOn x z T start stop w d)
  nextOpen : ∀ u, c.nextOpen t = .ok u ↔ NextReading z (OpenReading x T start stop) w u
  noNextOpen : ∀ e, c.nextOpen t = .error e ↔
    e = .indexError ∧ ∀ w', OpenReading x T start stop w' → w' ≤ w
  nextClose : ∀ u, c.nextClose t = .ok u ↔ NextReading z (CloseReading x z T start stop) w u
  noNextClose : ∀ e, c.nextClose t = .error e ↔
    e = .indexError ∧ ∀ w', CloseReading x z T start stop w' → w' ≤ w
  previousOpen : ∀ u, c.previousOpen t = .ok u ↔ PreviousReading z (OpenReading x T start stop) w u
  noPreviousOpen : ∀ e, c.previousOpen t = .error e ↔
    e = .valueError "Cannot go earlier in calendar!" ∧ ∀ w', OpenReading x T start stop w' → w ≤ w'
  previousClose : ∀ u, c.previousClose t = .ok u ↔
    PreviousReading z (CloseReading x z T start stop) w u
  noPreviousClose : ∀ e, c.previousClose t = .error e ↔
    e = .valueError "Cannot go earlier in calendar!" ∧
      ∀ w', CloseReading x z T start stop w' → w ≤ w'
  /-- `minute_to_session_label(t)` is the first trading day that has not ended; `t` after the last close
  raises. -/
  label : ∀ d, (TradesIn x start stop d ∧ (∃ c, T.EndsAt z start stop d c ∧ w ≤ d * DAY + c) ∧
      ∀ d' c', TradesIn x start stop d' → T.EndsAt z start stop d' c' → w ≤ d' * DAY + c' → d ≤ d') →
    c.sessionLabelFresh t "next" = .ok (d * DAY)
  noLabel : (∀ w', CloseReading x z T start stop w' → w' < w) →
    ∀ dir, c.sessionLabelFresh t dir = .error .indexError

/-- Every calendar of exchange `x` in zone `z` that was built for a range from day `first` on, without the
days `bad`, answers by the clock. -/
def ByClock (x : Exchange) (z : Tz) (first : Int) (bad : List Int) (T : Timetable) : Prop :=
  ∀ start stop b, first * DAY ≤ start → DAY ∣ start → (∀ d ∈ bad, d * DAY < start ∨ stop < d * DAY) →
    build (x.config z) start stop = .ok b →
      ∀ t w, Reads z t w → AnswersByClock x z T start stop b.cal t w

end TC.Spec
