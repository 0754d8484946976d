import Verif.Model.TimeZone

/-!
# Specification vocabulary for time zones
-/

namespace TC.Spec

/-- `o` is the UTC offset in force at `u`: that of the last transition at or before `u`, or the
zone's initial offset if there is none. -/
def OffsetInForce (z : Tz) (u o : Int) : Prop :=
  (∃ before s after, z.trans = before ++ (s, o) :: after ∧ s ≤ u ∧ ∀ e ∈ after, u < e.1) ∨
  (o = z.base ∧ ∀ e ∈ z.trans, u < e.1)

/-- At UTC instant `u` clocks in zone `z` read `wall`. -/
def Reads (z : Tz) (u wall : Int) : Prop := ∃ o, OffsetInForce z u o ∧ u + o = wall

/-- `u` is the one and only instant at which clocks in zone `z` read `wall`. -/
def OnlyInstant (z : Tz) (wall u : Int) : Prop := Reads z u wall ∧ ∀ u', Reads z u' wall → u' = u

/-- A well-behaved zone: offsets are less than a day, and transitions at least two days apart. -/
structure Tame (z : Tz) : Prop where
  base : -DAY < z.base ∧ z.base < DAY
  offsets : ∀ e ∈ z.trans, -DAY < e.2 ∧ e.2 < DAY
  apart : z.trans.Pairwise (fun e e' => e.1 + 2 * DAY ≤ e'.1)

/-- Offsets are whole minutes (pytz rounds local mean times to minutes). -/
def WholeMinuteZone (z : Tz) : Prop := MINUTE ∣ z.base ∧ ∀ e ∈ z.trans, MINUTE ∣ e.2

end TC.Spec
