import Verif.Spec.ByClock

/-! # Specification vocabulary: when the date of a minute names its session -/

namespace TC.Spec

/-- Clocks that read `w` show the date `d`, if they are `s` fast. -/
def ShowsDate (s w d : Int) : Prop := d * DAY ≤ w + s ∧ w + s < (d + 1) * DAY

/-- In every calendar of exchange `x` in zone `z` that was built for a range from day `first` on, without the days `bad`:
whenever the market is open (breaks ignored), `minute_to_session_label` is the date on the clocks of the city, set `s`
fast. -/
def LocalDates (x : Exchange) (z : Tz) (first : Int) (bad : List Int) (s : Int) : Prop :=
  ∀ start stop b, first * DAY ≤ start → DAY ∣ start → (∀ d ∈ bad, d * DAY < start ∨ stop < d * DAY) →
    build (x.config z) start stop = .ok b →
      ∀ t w, Reads z t w → b.cal.isOpenOnMinute t true = .ok true →
        ∀ d, ShowsDate s w d → b.cal.sessionLabelFresh t "next" = .ok (d * DAY)

/-- The same with the date in UTC, for instants from day `from'` on. -/
def UtcDates (x : Exchange) (z : Tz) (first : Int) (bad : List Int) (from' s : Int) : Prop :=
  ∀ start stop b, first * DAY ≤ start → DAY ∣ start → (∀ d ∈ bad, d * DAY < start ∨ stop < d * DAY) →
    build (x.config z) start stop = .ok b →
      ∀ t, from' * DAY ≤ t → b.cal.isOpenOnMinute t true = .ok true →
        ∀ d, ShowsDate s t d → b.cal.sessionLabelFresh t "next" = .ok (d * DAY)

/-- In every such calendar with day `d` in its range, the session of day `d` opens on the day before in UTC. -/
def OpensDayBefore (x : Exchange) (z : Tz) (first : Int) (bad : List Int) (d : Int) : Prop :=
  ∀ start stop b, first * DAY ≤ start → DAY ∣ start → (∀ d ∈ bad, d * DAY < start ∨ stop < d * DAY) →
    build (x.config z) start stop = .ok b → start ≤ d * DAY → d * DAY ≤ stop →
      ∃ t, b.cal.isOpenOnMinute t true = .ok true ∧ b.cal.sessionLabelFresh t "next" = .ok (d * DAY) ∧ ShowsDate 0 t (d - 1)

end TC.Spec
