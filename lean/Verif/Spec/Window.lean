import Verif.Model.Build

/-! # Specification vocabulary for the window of holiday calendars -/

namespace TC.Spec

/-- The regular holidays of the class are midnights that do not depend on the window asked for. -/
def OneCalendar (cfg : Config) : Prop :=
  ∀ cal, cfg.regularHolidays = some cal →
    ∃ P : Int → Prop, (∀ l, P l → DAY ∣ l) ∧ ∀ s e l, l ∈ cal s e ↔ P l ∧ s ≤ l ∧ l ≤ e

/-- The window from `w₀` to `w₁` contains every midnight of the days from `start` to `stop`. -/
def WindowCovers (w₀ w₁ start stop : Int) : Prop :=
  ∀ d, start < (d + 1) * DAY → d * DAY ≤ stop → w₀ ≤ d * DAY ∧ d * DAY ≤ w₁

end TC.Spec
