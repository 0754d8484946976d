import Verif.Spec.Feasts
import Verif.Spec.Moons

/-! # Specification vocabulary: days that a list of recorded holidays should have every year -/

namespace TC.Spec

/-- In the years from `y₀` to `y₁` every calendar of `x` is closed on the days of the book (at weekends in any case),
but open on the days `but`. -/
def KeepsBook (x : Exchange) (book : Book) (y₀ y₁ : Int) (but : List (Int × Int × Int)) : Prop :=
  ∀ y d, y₀ ≤ y → y ≤ y₁ → book.Holiday y d → (¬ OnDates but d → ClosedOn x d) ∧ (OnDates but d → OpenOn x d)

/-- The same for the dates of a table and days counted from them. -/
def KeepsFeast (x : Exchange) (table : List Int) (shifts : List Int) (y₀ y₁ : Int) (but : List (Int × Int × Int)) : Prop :=
  ∀ d ∈ table, ∀ y, InYear d y → y₀ ≤ y → y ≤ y₁ → ∀ s ∈ shifts,
    (¬ OnDates but (d + s) → ClosedOn x (d + s)) ∧ (OnDates but (d + s) → OpenOn x (d + s))

/-- Each of the days `but` is a day of the book in one of the years: no exception is idle. -/
def Needed (book : Book) (y₀ y₁ : Int) (but : List (Int × Int × Int)) : Prop :=
  ∀ d, OnDates but d → ∃ y, y₀ ≤ y ∧ y ≤ y₁ ∧ book.Holiday y d

namespace Books

/-- Mumbai: Republic day, Ambedkar's birthday, Maharashtra day, Independence day, Gandhi's birthday, Christmas, Good
Friday. -/
def mumbaiYearly : Book :=
  [every (.date 1 26), every (.date 4 14), every (.date 5 1), every (.date 8 15), every (.date 10 2), every christmas,
   every goodFriday]

/-- Seoul: new year, Independence movement, children, memorial, liberation and foundation day, Christmas, the last day of
the year. -/
def seoulYearly : Book :=
  [every newYear, every (.date 3 1), every (.date 5 5), every (.date 6 6), every (.date 8 15), every (.date 10 3),
   every christmas, every newYearsEve]

/-- Singapore: new year, labour day, National day and Christmas, made up on Monday, and Good Friday. -/
def singaporeYearly : Book :=
  [every (.moved 1 1 sundayToMonday), every (.moved 5 1 sundayToMonday), every (.moved 8 9 sundayToMonday),
   every (.moved 12 25 sundayToMonday), every goodFriday]

/-- Shanghai: new year, labour day, the first five days of October. -/
def shanghaiYearly : Book :=
  [every newYear, every labourDay, every (.date 10 1), every (.date 10 2), every (.date 10 3), every (.date 10 4),
   every (.date 10 5)]

end Books

end TC.Spec
