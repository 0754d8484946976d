import Verif.Spec.Abstraction
import Verif.Spec.Build

/-!
# Two calendars over overlapping ranges

What it means that two calendars agree on a stretch of time, in terms of their answers.
-/

namespace TC.Spec

/-- The calendars give the same answers about the time from `lo` to `hi`.  Where an answer may lie outside
(`next_open` and the like), it is the same as soon as one of them names a time inside. -/
structure SameAnswers (c c' : Cal) (lo hi : Int) : Prop where
  isSession : ∀ l, lo ≤ l → l ≤ hi → c.isSession l = c'.isSession l
  openAndClose : ∀ l, lo ≤ l → l ≤ hi → c.openAndCloseForSession l = c'.openAndCloseForSession l
  breakStartAndEnd : ∀ l, lo ≤ l → l ≤ hi →
    c.breakStartAndEndForSession l = c'.breakStartAndEndForSession l
  sessionsInRange : ∀ a e, lo ≤ a → e ≤ hi → c.sessionsInRange a e = c'.sessionsInRange a e
  opensInRange : ∀ a e, lo ≤ a → e ≤ hi → c.sessionOpensInRange a e = c'.sessionOpensInRange a e
  closesInRange : ∀ a e, lo ≤ a → e ≤ hi → c.sessionClosesInRange a e = c'.sessionClosesInRange a e
  distance : ∀ a e, lo ≤ a → a ≤ hi → lo ≤ e → e ≤ hi → c.sessionDistance a e = c'.sessionDistance a e
  nextSession : ∀ a l, lo ≤ a → a ≤ hi → l ≤ hi →
    (c.nextSessionLabel a = .ok l ↔ c'.nextSessionLabel a = .ok l)
  previousSession : ∀ a l, lo ≤ a → a ≤ hi → lo ≤ l →
    (c.previousSessionLabel a = .ok l ↔ c'.previousSessionLabel a = .ok l)
  isOpen : ∀ t ignoreBreaks, lo ≤ t → t ≤ hi → c.isOpenOnMinute t ignoreBreaks = c'.isOpenOnMinute t ignoreBreaks
  nextOpen : ∀ t u, lo ≤ t → u ≤ hi → (c.nextOpen t = .ok u ↔ c'.nextOpen t = .ok u)
  nextClose : ∀ t u, lo ≤ t → u ≤ hi → (c.nextClose t = .ok u ↔ c'.nextClose t = .ok u)
  nextMinute : ∀ t u, lo ≤ t → u ≤ hi → (c.nextMinute t = .ok u ↔ c'.nextMinute t = .ok u)
  previousOpen : ∀ t u, t ≤ hi → lo ≤ u → (c.previousOpen t = .ok u ↔ c'.previousOpen t = .ok u)
  previousClose : ∀ t u, t ≤ hi → lo ≤ u → (c.previousClose t = .ok u ↔ c'.previousClose t = .ok u)
  previousMinute : ∀ t u, t ≤ hi → lo ≤ u → (c.previousMinute t = .ok u ↔ c'.previousMinute t = .ok u)
  label : ∀ t l, lo ≤ t → l ≤ hi →
    (c.sessionLabelFresh t "next" = .ok l ↔ c'.sessionLabelFresh t "next" = .ok l)
  labelNone : ∀ t l, lo ≤ t → t ≤ hi →
    (c.sessionLabelFresh t "none" = .ok l ↔ c'.sessionLabelFresh t "none" = .ok l)
  minutesForSession : ∀ l, lo ≤ l → l ≤ hi → c.minutesForSession l = c'.minutesForSession l
  minutesForSessions : ∀ a e, lo ≤ a → a ≤ hi → lo ≤ e → e ≤ hi →
    c.minutesForSessionsInRange a e = c'.minutesForSessionsInRange a e
  minutesCount : ∀ a e, lo ≤ a → e ≤ hi →
    c.minutesCountForSessionsInRange a e = c'.minutesCountForSessionsInRange a e
  minutesInRange : ∀ a e ms ms', lo ≤ a → e ≤ hi → c.minutesInRange a e = .ok ms →
    c'.minutesInRange a e = .ok ms' → ms = ms'

/-- Two calendars agree on a stretch of time, their lists of special sessions included. -/
def Agree (b b' : Built) (lo hi : Int) : Prop :=
  SameAnswers b.cal b'.cal lo hi ∧
    ∀ l, lo ≤ l → l ≤ hi → (l ∈ b.earlyCloses ↔ l ∈ b'.earlyCloses) ∧ (l ∈ b.lateOpens ↔ l ∈ b'.lateOpens)

/-- The special times of the class do not depend on the window asked for, and no day has two different
ones. -/
structure OneSpecial (cfg : Config) : Prop where
  opens : ∀ e ∈ cfg.specialOpens, ∃ P : Int → Prop, ∀ s e' l, l ∈ e.2 s e' ↔ P l ∧ s ≤ l ∧ l ≤ e'
  closes : ∀ e ∈ cfg.specialCloses, ∃ P : Int → Prop, ∀ s e' l, l ∈ e.2 s e' ↔ P l ∧ s ≤ l ∧ l ≤ e'
  openUnique : ∀ s e l t t', SpecialTime cfg.specialOpens cfg.specialOpensAdhoc s e l t →
    SpecialTime cfg.specialOpens cfg.specialOpensAdhoc s e l t' → t = t'
  closeUnique : ∀ s e l t t', SpecialTime cfg.specialCloses cfg.specialClosesAdhoc s e l t →
    SpecialTime cfg.specialCloses cfg.specialClosesAdhoc s e l t' → t = t'

/-- A class whose sessions have times near their dates, in a well-behaved zone, all on whole minutes, and
whose special times do not depend on the range. -/
structure Steady (cfg : Config) : Prop where
  ordered : Ordered cfg
  tame : Tame cfg.tz
  zoneMinutes : WholeMinuteZone cfg.tz
  timeMinutes : WholeMinuteTimes cfg
  special : OneSpecial cfg
  openHigh : ∀ o, OpenWall cfg o → o ≤ DAY

end TC.Spec
