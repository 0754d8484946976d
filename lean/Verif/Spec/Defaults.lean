import Verif.Spec.Construct
import Verif.Model.Defaults

/-! # Specification vocabulary for the default calendars -/

namespace TC.Spec

/-- Day `d` is a trading day of the calendar class. -/
def ClassTrades : CalendarClass → Int → Prop
  | .exchange x _ _ => TradesOn x
  | .precomputed x _ => TradesOn x
  | .hongKong => TradesOn Xhkg.exchange
  | .simple cfg => fun d => ∃ w, IsWeekday d w ∧ cfg.weekmask w = true

/-- Day `d` is in the range a calendar of the class has by default: from the default start of the class
to 365 days after the import, for precomputed holidays from the first to the last recorded year. -/
def ClassCovers (now : Int) : CalendarClass → Int → Prop
  | .exchange _ _ start => fun d => start ≤ d * DAY ∧ d * DAY ≤ now + 365 * DAY
  | .precomputed x _ => fun d => ∃ y, InYear d y ∧ Recorded x.adhoc y
  | .hongKong => fun d => dayOf 1990 1 1 ≤ d ∧ d * DAY ≤ now + 365 * DAY
  | .simple _ => fun d => dayOf 1990 1 1 ≤ d ∧ d * DAY ≤ now + 365 * DAY

/-- Session `s` keeps the timetable of the class. -/
def ClassTimes (now : Int) : CalendarClass → Session → Prop
  | .exchange x z start => KeepsTimes x z start (now + 365 * DAY)
  | .precomputed x z => fun s => ∀ y y' d d', FirstYear x.adhoc y → LastYear x.adhoc y' →
      DayNumber ⟨y, 1, 1⟩ d → DayNumber ⟨y', 12, 31⟩ d' → KeepsTimes x z (d * DAY) (d' * DAY) s
  | .hongKong => KeepsTimes Xhkg.exchange Xhkg.zone (dayOf 1990 1 1 * DAY) (now + 365 * DAY)
  | .simple _ => fun s => s.open = s.label ∧ s.close = s.label + 86340000000000 ∧ s.brk = none

/-- What a calendar of the class offers if the module is imported at instant `now`: sessions on exactly
the trading days in its range, ordered and not overlapping, that keep the timetable. -/
def Offers (now : Int) (cls : CalendarClass) (b : Built) : Prop :=
  ∃ ss, b.cal = Cal.ofSessions ss ∧ ss ≠ [] ∧ Regular ss ∧ (∀ s ∈ ss, s.open < s.close) ∧
    (∀ l, l ∈ ss.map (·.label) ↔ ∃ d, l = d * DAY ∧ ClassCovers now cls d ∧ ClassTrades cls d) ∧
    ∀ s ∈ ss, ClassTimes now cls s

/-- The default range of three calendars reaches a point at which they cannot be constructed any more:
365 days after the import is not yet that point. -/
def InTime (now : Int) (name : String) : Prop :=
  (name = "XKLS" → now + 365 * DAY < dayOf 2029 2 13 * DAY) ∧
  (name = "XIST" → now + 365 * DAY < dayOf 2029 4 23 * DAY) ∧
  (name = "XHKG" → now + 365 * DAY < dayOf 2050 1 1 * DAY)

/-- The factories registered at import construct the default classes: factory number `i` returns an object
with the content that calling class number `i` yields, and raises what that call raises. -/
def Realizes (now : Int) (env : FactoryEnv) (content : CalObj → Built) : Prop :=
  ∀ (i : Nat) n cls log, defaultClasses[i]? = some (n, cls) →
    (∀ c, env i log = .ok c → cls.construct now = .ok (content c)) ∧
    ∀ e, env i log = .error e → cls.construct now = .error e

/-- A name, or an alias, that is registered at import. -/
def DefaultName (n : String) : Prop :=
  (∃ cls, (n, cls) ∈ defaultClasses) ∨ ∃ r, (n, r) ∈ defaultAliases

/-- A call that takes none of the default names away: no forced registration or deregistration of such a
name, and no clearing. -/
def Spares : Registry.Op → Prop
  | .registerCal n _ force => force = true → ¬ DefaultName n
  | .registerType n _ force => force = true → ¬ DefaultName n
  | .registerAlias n _ force => force = true → ¬ DefaultName n
  | .deregister n => ¬ DefaultName n
  | .clear => False
  | _ => True

end TC.Spec
