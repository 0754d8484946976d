import Verif.Model.Machine
import Verif.Spec.Overlap

/-!
# Machine arithmetic that is exact where it fits
-/

namespace TC.Spec

/-- A value of type int64. -/
def FitsInt64 (x : Int) : Prop := -9223372036854775808 ≤ x ∧ x ≤ 9223372036854775807

/-- An integer that float64 represents exactly, as all of at most this size. -/
def FitsFloat (x : Int) : Prop := -9007199254740992 ≤ x ∧ x ≤ 9007199254740992

/-- All that is known about the machine: an operation on values that fit, with a result that fits, is exact. -/
structure Exact (M : Machine) : Prop where
  lit : ∀ a, FitsInt64 a → M.lit a = .ok a
  add : ∀ a b, FitsInt64 a → FitsInt64 b → FitsInt64 (a + b) → M.add a b = .ok (a + b)
  sub : ∀ a b, FitsInt64 a → FitsInt64 b → FitsInt64 (a - b) → M.sub a b = .ok (a - b)
  mul : ∀ a b, FitsInt64 a → FitsInt64 b → FitsInt64 (a * b) → M.mul a b = .ok (a * b)
  fadd : ∀ a b, FitsFloat a → FitsFloat b → FitsFloat (a + b) → M.fadd a b = .ok (a + b)

/-- The instants at least four days away from both ends of what int64 nanoseconds can express (the ends are in
September 1677 and April 2262). -/
def InsideInt64 (u : Int) : Prop := -9223372036854775808 + 4 * DAY ≤ u ∧ u ≤ 9223372036854775807 - 4 * DAY

/-- The dates a class knows of, by rule or ad hoc, are inside whenever the range is. -/
def DatesInside (cfg : Config) : Prop := ∀ start stop l t, InsideInt64 start → InsideInt64 stop →
  SpecialTime cfg.specialOpens cfg.specialOpensAdhoc start stop l t ∨
    SpecialTime cfg.specialCloses cfg.specialClosesAdhoc start stop l t → InsideInt64 l

/-- All times of day the class configures are between one day before and two days after the session's midnight. -/
structure NearTimes (cfg : Config) : Prop where
  opens : ∀ o, OpenWall cfg o → -DAY ≤ o ∧ o ≤ 2 * DAY
  closes : ∀ c, CloseWall cfg c → -DAY ≤ c ∧ c ≤ 2 * DAY
  breakStarts : ∀ b, BreakStartWall cfg b → -DAY ≤ b ∧ b ≤ 2 * DAY
  breakEnds : ∀ b, BreakEndWall cfg b → -DAY ≤ b ∧ b ≤ 2 * DAY

end TC.Spec
