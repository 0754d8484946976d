import Verif.Spec.Build

/-!
# Specification vocabulary for dates

A calendar date is a triple; the Gregorian calendar is given by the lengths of its months and the
step from one day to the next, independently of the day-count formulas of the model.
-/

namespace TC.Spec

/-- Leap years: divisible by 4, except centuries not divisible by 400. -/
def Leap (y : Int) : Prop := 4 ∣ y ∧ (100 ∣ y → 400 ∣ y)

instance (y : Int) : Decidable (Leap y) := by unfold Leap; infer_instance

/-- Length of month `m` of year `y`. -/
def monthLength (y m : Int) : Int :=
  if m = 2 then (if Leap y then 29 else 28)
  else if m = 4 ∨ m = 6 ∨ m = 9 ∨ m = 11 then 30 else 31

/-- A calendar date. -/
structure Date where
  year : Int
  month : Int
  day : Int
  deriving DecidableEq, Repr

def Date.Valid (x : Date) : Prop :=
  1 ≤ x.month ∧ x.month ≤ 12 ∧ 1 ≤ x.day ∧ x.day ≤ monthLength x.year x.month

/-- The next day. -/
def Date.succ (x : Date) : Date :=
  if x.day < monthLength x.year x.month then { x with day := x.day + 1 }
  else if x.month < 12 then { year := x.year, month := x.month + 1, day := 1 }
  else { year := x.year + 1, month := 1, day := 1 }

/-- `DayNumber x d`: `d` days lead from 1970-01-01 to `x` (from `x` to 1970-01-01 if negative). -/
inductive DayNumber : Date → Int → Prop
  | epoch : DayNumber ⟨1970, 1, 1⟩ 0
  | next {x d} : DayNumber x d → DayNumber x.succ (d + 1)
  | prev {x d} : x.Valid → DayNumber x.succ (d + 1) → DayNumber x d

/-- The `n`-th day with weekday `w` of month `m` of year `y` is day number `d`. -/
def NthWeekday (n w y m d : Int) : Prop :=
  ∃ k, DayNumber ⟨y, m, k⟩ d ∧ IsWeekday d w ∧ 7 * (n - 1) < k ∧ k ≤ 7 * n ∧ k ≤ monthLength y m

/-- The last day with weekday `w` of month `m` of year `y` is day number `d`. -/
def LastWeekday (w y m d : Int) : Prop :=
  ∃ k, DayNumber ⟨y, m, k⟩ d ∧ IsWeekday d w ∧ monthLength y m - 7 < k ∧ k ≤ monthLength y m

end TC.Spec
