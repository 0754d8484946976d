import Verif.Spec.Civil
import Verif.Model.Holiday

/-!
# Specification vocabulary for holiday rules

What a rule means, stated from its data alone: reference dates by counting days, weekdays by
counting from a known Thursday, observances by tables "on this weekday, move by so many days",
offsets by the property of the date they lead to, and Easter by the ecclesiastical full moon.
-/

namespace TC.Spec

/-- Day number `d` lies in year `y`. -/
def InYear (d y : Int) : Prop := ∃ m k, Date.Valid ⟨y, m, k⟩ ∧ DayNumber ⟨y, m, k⟩ d

/-! ### Easter -/

/-- Age of the ecclesiastical moon, counted so that the Paschal full moon is that many days after
March 21: the golden-number term, the solar and lunar corrections of the century, and the two
exceptions of the Gregorian reform. -/
def paschalAge (y : Int) : Int :=
  let golden := y % 19
  let century := y / 100
  let age := (19 * golden + 15 + (century - century / 4) - (8 * century + 13) / 25) % 30
  if age = 29 then 28 else if age = 28 ∧ 11 ≤ golden then 27 else age

/-- `d` is Easter Sunday of year `y`: the first Sunday after the Paschal full moon. -/
def EasterSunday (y d : Int) : Prop :=
  ∃ march21, DayNumber ⟨y, 3, 21⟩ march21 ∧ IsWeekday d 6 ∧
    march21 + paschalAge y < d ∧ d ≤ march21 + paschalAge y + 7

/-! ### Offsets -/

/-- Adding the offset to `u` leads to `d`. -/
def Moves : Offset → Int → Int → Prop
  | .days n, u, d => d = u + n
  | .easter, u, d =>
      (∃ y, EasterSunday y d) ∧ u < d ∧ ∀ y e, EasterSunday y e → u < e → d ≤ e
  | .annual f, u, d => ∃ y, InYear u y ∧ ((u < f y ∧ d = f y) ∨ (f y ≤ u ∧ d = f (y + 1)))
  | .weekday wd n, u, d => IsWeekday d wd ∧
      ((0 < n ∧ u + 7 * (n - 1) ≤ d ∧ d < u + 7 * n) ∨
       (n < 0 ∧ u + 7 * n < d ∧ d ≤ u + 7 * (n + 1)))
  | .weekOfMonth week wd, u, d =>
      (∃ y m, NthWeekday (week + 1) wd y m d) ∧ u < d ∧
        ∀ y m e, NthWeekday (week + 1) wd y m e → u < e → d ≤ e
  | .lastWeekOfMonth wd, u, d =>
      (∃ y m, LastWeekday wd y m d) ∧ u < d ∧ ∀ y m e, LastWeekday wd y m e → u < e → d ≤ e

/-- Adding the offsets one after the other leads from `u` to `d`. -/
def MovesAll : List Offset → Int → Int → Prop
  | [], u, d => d = u
  | o :: os, u, d => ∃ v, Moves o u v ∧ MovesAll os v d

/-! ### Observances -/

/-- By how many days a holiday is moved, for each weekday (Monday to Sunday) it may fall on; all
entries count, an empty list drops the holiday. -/
abbrev WeekTable := List (List Int)

/-- `d` is a date the table gives for a holiday on `u`. -/
def ByTable (t : WeekTable) (u d : Int) : Prop :=
  ∃ w : Nat, IsWeekday u w ∧ ∃ l, t[w]? = some l ∧ (d - u) ∈ l

/-- The holiday on `u` is observed on `d` (perhaps among other dates). -/
def Contributes : Obs → Int → Int → Prop
  | .sundayToMonday, u, d => ByTable [[0], [0], [0], [0], [0], [0], [1]] u d
  | .weekendToMonday, u, d => ByTable [[0], [0], [0], [0], [0], [2], [1]] u d
  | .nextMonday, u, d => ByTable [[0], [0], [0], [0], [0], [2], [1]] u d
  | .nextMondayOrTuesday, u, d => ByTable [[1], [0], [0], [0], [0], [2], [2]] u d
  | .previousFriday, u, d => ByTable [[0], [0], [0], [0], [0], [-1], [-2]] u d
  | .nearestWorkday, u, d => ByTable [[0], [0], [0], [0], [0], [-1], [1]] u d
  | .previousWorkday, u, d => ByTable [[-3], [-1], [-1], [-1], [-1], [-1], [-2]] u d
  | .fourDayWeekend, u, d => ByTable [[0], [0, -1], [0], [0, 1], [0], [0], [0]] u d
  | .nearestMondayXbue, u, d => ByTable [[0], [-1], [-2], [4], [3], [2], [1]] u d
  | .culturalDiversity, u, d =>
      ByTable [[0], [-1], [-2], [4], [3], [2], [1]] u d ∧ ¬ InYear d 2012
  | .notYear y, u, d => d = u ∧ ¬ InYear u y
  | .nearestMondayXsgo, u, d => ByTable [[0], [-1], [-2], [-3], [3], [0], [0]] u d
  | .tuesdayAndWednesdayToFriday, u, d => ByTable [[0], [-4], [2], [0], [0], [0], [0]] u d
  | .weekendToMondayExcept ys, u, d =>
      ByTable [[0], [0], [0], [0], [0], [2], [1]] u d ∧ ∀ y ∈ ys, ¬ InYear u y
  | .nextMondayOrTuesdayExcept y, u, d =>
      ByTable [[1], [0], [0], [0], [0], [2], [2]] u d ∧ ¬ InYear u y
  | .songkranLastDay, u, d => ByTable [[1], [0], [0], [0], [0], [0], [1]] u d
  | .sundayToTuesday, u, d => ByTable [[0], [0], [0], [0], [0], [0], [2]] u d
  | .sundayToWednesday, u, d => ByTable [[0], [0], [0], [0], [0], [0], [3]] u d
  | .onlyFriday, u, d => ByTable [[], [], [], [], [0], [], []] u d
  | .taiwanMakeup, u, d => d = u ∨
      (ByTable [[], [-1], [], [1], [], [-1], [1]] u d ∧ ∃ y, InYear d y ∧ 2014 ≤ y)
  | .boxingDayObs, u, d => d = u
  | .nextMondayOffset, u, d => ByTable [[0], [6], [5], [4], [3], [2], [1]] u d
  | .processQueenBirthday, u, d => ∃ y, InYear u y ∧
      if y = 1974 ∨ y = 1981 then Moves (.weekday 6 1) u d
      else if y < 1983 then ByTable [[0], [0], [0], [0], [0], [0], [1]] u d
      else if y = 1985 then Moves (.weekOfMonth 3 0) u d
      else if y = 1983 ∨ y = 1988 ∨ y = 1993 ∨ y = 1994 then Moves (.weekOfMonth 1 0) u d
      else Moves (.weekOfMonth 2 0) u d
  | .followingTuesdayEveryFourYears, u, d =>
      ∃ y m k y' v, Date.Valid ⟨y, m, k⟩ ∧ DayNumber ⟨y, m, k⟩ u ∧ 4 ∣ y' ∧ y ≤ y' ∧ y' < y + 4 ∧
        Date.Valid ⟨y', m, k⟩ ∧ DayNumber ⟨y', m, k⟩ v ∧ IsWeekday d 1 ∧ v ≤ d ∧ d < v + 7
  | .goodFridayUnlessChristmasNyeFriday, u, d =>
      ∃ y christmas newYear, InYear u y ∧ DayNumber ⟨y, 12, 25⟩ christmas ∧
        DayNumber ⟨y, 1, 1⟩ newYear ∧ ¬ IsWeekday christmas 4 ∧ ¬ IsWeekday christmas 5 ∧
        ¬ IsWeekday newYear 4 ∧ Moves .easter u (d + 2)

/-! ### Rules -/

/-- The holiday of reference year `y` is kept on day `d`, the rule's bounds aside. -/
def KeptOn (r : Rule) (y d : Int) : Prop :=
  ∃ u, DayNumber ⟨y, r.month, r.day⟩ u ∧
    (match r.observance with
      | some o => Contributes o u d
      | none => MovesAll r.offsets u d) ∧
    (∀ ws, r.daysOfWeek = some ws → ∃ w ∈ ws, IsWeekday d w)

/-- Day `d` is a holiday by rule `r`. -/
def IsHoliday (r : Rule) (d : Int) : Prop :=
  match r.year with
  | some y => DayNumber ⟨y, r.month, r.day⟩ d
  | none => (∃ y, KeptOn r y d) ∧ (∀ s, r.startDate = some s → s ≤ d) ∧
      (∀ e, r.endDate = some e → d ≤ e)

/-- Offsets pandas can apply: `WD(n)` with `n` not zero, weekdays 0-6, weeks of the month 0-3. -/
def GoodOffset : Offset → Prop
  | .weekday wd n => 0 ≤ wd ∧ wd < 7 ∧ n ≠ 0
  | .weekOfMonth week wd => 0 ≤ week ∧ week ≤ 3 ∧ 0 ≤ wd ∧ wd < 7
  | .lastWeekOfMonth wd => 0 ≤ wd ∧ wd < 7
  | _ => True

/-- A rule pandas accepts for every year: its reference date exists in every year. -/
structure GoodRule (r : Rule) : Prop where
  date : ∀ y, Date.Valid ⟨y, r.month, r.day⟩
  offsets : ∀ o ∈ r.offsets, GoodOffset o
  weekdays : ∀ ws, r.daysOfWeek = some ws → ∀ w ∈ ws, 0 ≤ w ∧ w < 7

/-- Every holiday of the rule comes from a reference date of its own or an adjacent year. -/
def Near (r : Rule) : Prop :=
  ∀ y d, KeptOn r y d → ∃ y₁ y₂, KeptOn r y₁ d ∧ InYear d y₂ ∧ y₁ - 1 ≤ y₂ ∧ y₂ ≤ y₁ + 1

/-- No year's holiday is kept outside that year and the two adjacent ones. -/
def StrictlyNear (r : Rule) : Prop :=
  ∀ y d, KeptOn r y d → ∃ y', InYear d y' ∧ y - 1 ≤ y' ∧ y' ≤ y + 1

/-- The dates of rule `r` in any window are those of `P`, where `P y d` says that day `d` is the
holiday of year `y`. -/
def Yields (r : Rule) (P : Int → Int → Prop) : Prop :=
  ∀ start stop u, u ∈ r.dates start stop ↔
    ∃ y d, u = d * DAY ∧ P y d ∧ start ≤ u ∧ u ≤ stop

/-- Day `d` keeps month `m`, day `k` of year `y`: on the day itself unless that is a Sunday, else on
the Monday after. -/
def SundayToMonday (y m k d : Int) : Prop :=
  (DayNumber ⟨y, m, k⟩ d ∧ ¬ IsWeekday d 6) ∨ (DayNumber ⟨y, m, k⟩ (d - 1) ∧ IsWeekday d 0)

/-- Day `d` keeps month `m`, day `k` of year `y`: on the day itself from Monday to Friday, on the
Friday before a Saturday, on the Monday after a Sunday. -/
def NearestWorkday (y m k d : Int) : Prop :=
  (DayNumber ⟨y, m, k⟩ d ∧ ¬ IsWeekday d 5 ∧ ¬ IsWeekday d 6) ∨
  (DayNumber ⟨y, m, k⟩ (d + 1) ∧ IsWeekday d 4) ∨ (DayNumber ⟨y, m, k⟩ (d - 1) ∧ IsWeekday d 0)

end TC.Spec
