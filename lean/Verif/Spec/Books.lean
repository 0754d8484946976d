import Verif.Spec.RuleBooks

/-!
# Holiday lists

A small language for the holiday lists of the exchanges, close to how their documentation words them:
a book is a list of days of the year, each with the years in which it is kept.
-/

namespace TC.Spec

/-- A day of the year, as a holiday list names it. -/
inductive Yearly where
  /-- month `m`, day `k` -/
  | date (m k : Int)
  /-- month `m`, day `k`, if that is one of the weekdays `ws` -/
  | dateIf (m k : Int) (ws : List Int)
  /-- `n` days after Easter Sunday (before, if negative) -/
  | easter (n : Int)
  /-- the `n`-th weekday `w` of month `m` -/
  | nth (n w m : Int)
  /-- `p` days after the `n`-th weekday `w` of month `m` -/
  | nthPlus (n w m p : Int)
  /-- the last weekday `w` of month `m` -/
  | last (w m : Int)
  /-- the first weekday `w` on or after month `m`, day `k` -/
  | onOrAfter (w m k : Int)
  /-- the last weekday `w` on or before month `m`, day `k` -/
  | onOrBefore (w m k : Int)
  /-- month `m`, day `k`, moved by weekday -/
  | moved (m k : Int) (t : WeekTable)
  deriving DecidableEq

/-- Day `d` is that day of year `y`. -/
def Yearly.On : Yearly → Int → Int → Prop
  | .date m k, y, d => DayNumber ⟨y, m, k⟩ d
  | .dateIf m k ws, y, d => DayNumber ⟨y, m, k⟩ d ∧ ∃ w ∈ ws, IsWeekday d w
  | .easter n, y, d => EasterSunday y (d - n)
  | .nth n w m, y, d => NthWeekday n w y m d
  | .nthPlus n w m p, y, d => NthWeekday n w y m (d - p)
  | .last w m, y, d => LastWeekday w y m d
  | .onOrAfter w m k, y, d => IsWeekday d w ∧ ∃ u, DayNumber ⟨y, m, k⟩ u ∧ u ≤ d ∧ d < u + 7
  | .onOrBefore w m k, y, d => IsWeekday d w ∧ ∃ u, DayNumber ⟨y, m, k⟩ u ∧ u - 7 < d ∧ d ≤ u
  | .moved m k t, y, d => ∃ u, DayNumber ⟨y, m, k⟩ u ∧ ByTable t u d

/-- A line of a holiday list: a day of the year, the first and the last year in which it is kept (no
bound if absent), and years in between in which it is not. -/
structure Line where
  day : Yearly
  first : Option Int := none
  final : Option Int := none
  but : List Int := []

/-- Day `d` is the holiday of year `y` of that line. -/
def Line.On (e : Line) (y d : Int) : Prop :=
  (∀ a, e.first = some a → a ≤ y) ∧ (∀ b, e.final = some b → y ≤ b) ∧ y ∉ e.but ∧ e.day.On y d

/-- A holiday list. -/
abbrev Book := List Line

/-- Day `d` is a holiday of year `y` by the book. -/
def Book.Holiday (b : Book) (y d : Int) : Prop := ∃ e ∈ b, e.On y d

/-- A case: the calendar of exchange `x` for the year 2019 can be built, day `h` is no session of it and
day `o` is one. -/
def HasCase (x : Exchange) (z : Tz) (h o : Int) : Prop :=
  ∃ b, build (x.config z) (dayOf 2019 1 1 * DAY) (dayOf 2019 12 31 * DAY) = .ok b ∧
    h * DAY ∉ b.cal.sessions ∧ o * DAY ∈ b.cal.sessions

/-- Day `d` has the early close `t` by the lists: times of day with the days on which they apply, by a
book or one by one. -/
def EarlyByBook (early : List (Int × Book)) (single : List (Int × List (Int × Int × Int)))
    (d t : Int) : Prop :=
  (∃ e ∈ early, e.1 = t ∧ ∃ y, e.2.Holiday y d) ∨ ∃ e ∈ single, e.1 = t ∧ OnDates e.2 d

/-- The early closes of exchange `x`, in any year, are those listed. -/
def ClosesEarlyBy (x : Exchange) (early : List (Int × Book))
    (single : List (Int × List (Int × Int × Int))) : Prop :=
  ∀ d t, ClosesEarly x d t ↔ EarlyByBook early single d t

namespace Books

def every (x : Yearly) : Line := { day := x }
def since (a : Int) (x : Yearly) : Line := { day := x, first := some a }
def until' (b : Int) (x : Yearly) : Line := { day := x, final := some b }
def between (a b : Int) (x : Yearly) : Line := { day := x, first := some a, final := some b }

/-! Common names. -/

def newYear : Yearly := .date 1 1
def epiphany : Yearly := .date 1 6
def maundyThursday : Yearly := .easter (-3)
def goodFriday : Yearly := .easter (-2)
def easterMonday : Yearly := .easter 1
def ascension : Yearly := .easter 39
def whitMonday : Yearly := .easter 50
def corpusChristi : Yearly := .easter 60
def labourDay : Yearly := .date 5 1
def assumption : Yearly := .date 8 15
def allSaints : Yearly := .date 11 1
def immaculateConception : Yearly := .date 12 8
def christmasEve : Yearly := .date 12 24
def christmas : Yearly := .date 12 25
def boxingDay : Yearly := .date 12 26
def newYearsEve : Yearly := .date 12 31

/-- Monday to Friday. -/
def weekdays : List Int := [0, 1, 2, 3, 4]

/-! Makeup days: by how many days a holiday is moved if it falls on a Monday, …, Sunday. -/

/-- A Sunday is made up on Monday. -/
def sundayToMonday : WeekTable := [[0], [0], [0], [0], [0], [0], [1]]
/-- A weekend is made up on Monday. -/
def weekendToMonday : WeekTable := [[0], [0], [0], [0], [0], [2], [1]]
/-- The day after a holiday so made up: a weekend on Monday or Tuesday, a Monday on Tuesday. -/
def mondayOrTuesday : WeekTable := [[1], [0], [0], [0], [0], [2], [2]]
/-- A weekend is kept on the Friday before. -/
def weekendToFriday : WeekTable := [[0], [0], [0], [0], [0], [-1], [-2]]
/-- Kept on the nearest weekday. -/
def nearestWeekday : WeekTable := [[0], [0], [0], [0], [0], [-1], [1]]
/-- The weekday before. -/
def weekdayBefore : WeekTable := [[-3], [-1], [-1], [-1], [-1], [-1], [-2]]
/-- A Tuesday or Thursday makes a long weekend. -/
def longWeekend : WeekTable := [[0], [0, -1], [0], [0, 1], [0], [0], [0]]

end Books

end TC.Spec
