import Verif.Spec.Build

/-!
# Vocabulary for starts and ends with a time of day
-/

namespace TC.Spec

/-- The class names its special dates by midnights, whatever the range. -/
def MidnightSpecials (cfg : Config) : Prop := ∀ start stop l t,
  SpecialTime cfg.specialOpens cfg.specialOpensAdhoc start stop l t ∨
    SpecialTime cfg.specialCloses cfg.specialClosesAdhoc start stop l t → DAY ∣ l

/-- Clocks of the zone read the time of day the table prescribes for the session of day `d`, plus `late`, on
that day shifted by `offset` days, exactly at `u`.  The table is looked up at the label, which is late as well. -/
def LateTime (z : Tz) (table : TimeTable) (offset d late u : Int) : Prop :=
  ∃ t, TimeInEffect table (d * DAY + late) t ∧ OnlyInstant z ((d + offset) * DAY + t + late) u

/-- The session of trading day `d` in a calendar that knows no special times and is `late`: label, open, close
and break are all the standard ones plus `late`. -/
structure LateSession (cfg : Config) (late d : Int) (s : Session) : Prop where
  day : TradingDay cfg d
  label : s.label = d * DAY + late
  opens : LateTime cfg.tz cfg.openTimes cfg.openOffset d late s.open
  closes : LateTime cfg.tz cfg.closeTimes cfg.closeOffset d late s.close
  noBreak : cfg.breakStartTimes = none → s.brk = none
  breaks : ∀ bt et, cfg.breakStartTimes = some bt → cfg.breakEndTimes = some et →
    ∃ b e, s.brk = some (b, e) ∧ LateTime cfg.tz bt 0 d late b ∧ LateTime cfg.tz et 0 d late e

end TC.Spec
