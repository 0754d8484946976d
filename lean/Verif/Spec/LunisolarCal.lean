import Verif.Spec.Lunisolar
import Verif.Spec.Tcal

/-! # What `chinese-cal` is to print -/

namespace TC.Spec.Lunisolar
open Tcal

/-- At instant `u` the year in UTC is `y`. -/
def UtcYear (u y : Int) : Prop := ∃ m k d, DayNumber ⟨y, m, k⟩ d ∧ d * DAY ≤ u ∧ u < (d + 1) * DAY

/-- Year `y` begins with month `j`: the first month that begins a year and whose new moon is in `y`. -/
def YearBegins (newMoons solstices zhongqi : List Int) (y : Int) (j : Nat) : Prop :=
  NewYearMonth newMoons solstices zhongqi j ∧ (∃ m, newMoons[j]? = some m ∧ UtcYear m y) ∧
    ∀ i m, i < j → NewYearMonth newMoons solstices zhongqi i → newMoons[i]? = some m → ¬ UtcYear m y

/-- The two columns of day `k`. -/
def twoDigits (k : Int) : List Char := [if k < 10 then ' ' else digit (k / 10), digit (k % 10)]

/-- The first of the two columns of weekday `w`; weeks start on Sunday. -/
def lunarColumn (w : Int) : Nat := 3 * ((w + 1) % 7).toNat

/-- `rows` is the grid of the days from `a` to the day before `b`, day `d` being in row `row d`: every Sunday
starts a new row (so that a month starting on a Sunday leaves row 0 empty); each day stands, as its number in the
Gregorian month, in the columns of its weekday; everything else is blank. -/
structure LunarGrid (a b : Int) (rows : List Str) (row : Int → Nat) : Prop where
  width : ∀ l ∈ rows, l.length ≤ 20 ∧ ∀ c ∈ l, ¬ LineEnd c
  first : (IsWeekday a 6 → row a = 1) ∧ (¬ IsWeekday a 6 → row a = 0)
  next : ∀ d, a ≤ d → d + 1 < b →
    (IsWeekday (d + 1) 6 → row (d + 1) = row d + 1) ∧ (¬ IsWeekday (d + 1) 6 → row (d + 1) = row d)
  last : rows.length = row (b - 1) + 1
  days : ∀ d w y m k, a ≤ d → d < b → IsWeekday d w → DayNumber ⟨y, m, k⟩ d → ∀ i, i < 2 →
    column (rows.getD (row d) []) (lunarColumn w + i) = (twoDigits k).getD i ' '
  blank : ∀ r q, (∀ d w, a ≤ d → d < b → IsWeekday d w →
      ¬ (row d = r ∧ lunarColumn w ≤ q ∧ q < lunarColumn w + 2)) →
    column (rows.getD r []) q = ' '

/-- The heading of month `n`; `(+)` is for a month with leap month. -/
def lunarTitle (n : Int) (plus : Bool) (year : Option Int) : Str :=
  "Lunar Month ".toList ++ numeral n ++ (if plus then "(+)".toList else []) ++
    (match year with
     | some y => ' ' :: numeral y
     | none => [])

/-- The line is the text after half of the blanks that are missing to `width` columns. -/
def Centred (text : Str) (width : Nat) (line : Str) : Prop :=
  line = List.replicate ((width - text.length) / 2) ' ' ++ text

/-- The lines show month `n`, with the days from `a` to the day before `b`: two headings, the second with the
Gregorian months of the first and the last day, the names of the weekdays, the grid. -/
def LunarMonthLines (a b n : Int) (plus : Bool) (year : Option Int) (lines : List Str) : Prop :=
  ∃ title months rows row, lines = title :: months :: "Su Mo Tu We Th Fr Sa".toList :: rows ∧
    Centred (lunarTitle n plus year) 20 title ∧
    (∀ y m k y' m' k', DayNumber ⟨y, m, k⟩ a → DayNumber ⟨y', m', k'⟩ (b - 1) →
      Centred ((monthName m).toList ++ ['-'] ++ (monthName m').toList) 20 months) ∧
    LunarGrid a b rows row

/-- The text shows the year, month `n + 1` having the days from `start n` to the day before `start (n + 1)`: the
centred year, then four rows of three months, separated by empty lines. -/
def ShowsLunarYear (start : Nat → Int) (y : Int) (text : Str) : Prop :=
  ∃ (lines quarter : Nat → List Str),
    (∀ n, n < 12 → LunarMonthLines (start n) (start (n + 1)) (n + 1)
      (decide (30 < start (n + 1) - start n)) none (lines n)) ∧
    (∃ heading, Centred (numeral y) 66 heading ∧ text = heading ++ ['\n'] ++
      ['\n', '\n'].intercalate [['\n'].intercalate (quarter 0), ['\n'].intercalate (quarter 1),
        ['\n'].intercalate (quarter 2), ['\n'].intercalate (quarter 3)] ++ ['\n']) ∧
    ∀ q, q < 4 →
      (∀ i, i < 3 → (lines (3 * q + i)).length ≤ (quarter q).length) ∧
      (∃ i, i < 3 ∧ (lines (3 * q + i)).length = (quarter q).length) ∧
      ∀ r line, (quarter q)[r]? = some line → Shows line (sideBySide
        [lines (3 * q), lines (3 * q + 1), lines (3 * q + 2)] 20 r)

end TC.Spec.Lunisolar
