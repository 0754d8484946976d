import Verif.Spec.Civil
import Verif.Model.Tcal

/-! # Specification vocabulary for `tcal` -/

namespace TC.Spec
open Tcal

/-- The white space characters of Unicode, as Python knows them. -/
def WhiteSpace (c : Char) : Prop :=
  c.toNat ∈ [9, 10, 11, 12, 13, 28, 29, 30, 31, 32, 133, 160, 5760, 8192, 8193, 8194, 8195, 8196, 8197, 8198, 8199,
    8200, 8201, 8202, 8232, 8233, 8239, 8287, 12288]

instance (c : Char) : Decidable (WhiteSpace c) := inferInstanceAs (Decidable (_ ∈ _))

/-- The characters that end a line: line feed, vertical tab, form feed, carriage return, the separators of
files, groups and records, next line, and the line and paragraph separators. -/
def LineEnd (c : Char) : Prop := c.toNat ∈ [10, 11, 12, 13, 28, 29, 30, 133, 8232, 8233]

instance (c : Char) : Decidable (LineEnd c) := inferInstanceAs (Decidable (_ ∈ _))

/-- The integer in decimal digits, with a minus sign if it is negative. -/
def numeral (n : Int) : Str := (toString n).toList

/-- The text made of the given lines, each ended by a newline. -/
def printed (lines : List Str) : Str := (lines.map (· ++ ['\n'])).flatten

/-- The text consists of the given lines; the newline after the last line may be missing. -/
def HasLines (text : Str) (lines : List Str) : Prop :=
  text = printed lines ∨ (text ++ ['\n'] = printed lines ∧ lines.getLast? ≠ some [])

/-- The character in column `q`; beyond the end of the line, a blank. -/
def column (line : Str) (q : Nat) : Char := line.getD q ' '

/-- Blocks of lines side by side, each `width` columns wide, with three columns between them: the
character in row `r` and column `q`. -/
def sideBySide (blocks : List (List Str)) (width r q : Nat) : Char :=
  if q % (width + 3) < width then column ((blocks.getD (q / (width + 3)) []).getD r []) (q % (width + 3))
  else ' '

/-- `row` shows the characters `f 0, f 1, …` up to trailing white space, which it does not have. -/
def Shows (row : Str) (f : Nat → Char) : Prop :=
  (∀ q, q < row.length → column row q = f q) ∧ (∀ q, row.length ≤ q → WhiteSpace (f q)) ∧
  ∀ c, row.getLast? = some c → ¬ WhiteSpace c

/-- The digit `n` as a character. -/
def digit (n : Int) : Char := Char.ofNat (48 + n.toNat)

/-- The four columns of day `k`: in brackets unless it is a session. -/
def dayCell (session : Bool) (k : Int) : List Char :=
  [if session then ' ' else '[', if k < 10 then ' ' else digit (k / 10), digit (k % 10),
    if session then ' ' else ']']

/-- The first column of weekday `w`; weeks start on Sunday. -/
def weekdayColumn (w : Int) : Nat := 4 * ((w + 1) % 7).toNat

/-- `rows` is the grid of month `m` of year `y`, day `k` being in row `row k`: every Sunday starts a new
row (so that a month starting on a Sunday leaves row 0 empty); each day stands in the columns of its
weekday, in brackets unless it is a session; everything else is blank. -/
structure MonthGrid (isSession : Int → Bool) (y m : Int) (rows : List Str) (row : Int → Nat) : Prop where
  width : ∀ l ∈ rows, l.length ≤ 28 ∧ ∀ c ∈ l, ¬ LineEnd c
  first : ∀ d, DayNumber ⟨y, m, 1⟩ d → (IsWeekday d 6 → row 1 = 1) ∧ (¬ IsWeekday d 6 → row 1 = 0)
  next : ∀ k d, 1 ≤ k → DayNumber ⟨y, m, k + 1⟩ d →
    (IsWeekday d 6 → row (k + 1) = row k + 1) ∧ (¬ IsWeekday d 6 → row (k + 1) = row k)
  last : rows.length = row (monthLength y m) + 1
  days : ∀ k d w, DayNumber ⟨y, m, k⟩ d → IsWeekday d w → ∀ i, i < 4 →
    column (rows.getD (row k) []) (weekdayColumn w + i) = (dayCell (isSession d) k).getD i ' '
  blank : ∀ r q, (∀ k d w, DayNumber ⟨y, m, k⟩ d → IsWeekday d w →
      ¬ (row k = r ∧ weekdayColumn w ≤ q ∧ q < weekdayColumn w + 4)) →
    column (rows.getD r []) q = ' '

/-- The names of the months. -/
def monthName (m : Int) : String :=
  if m = 1 then "January" else if m = 2 then "February" else if m = 3 then "March"
  else if m = 4 then "April" else if m = 5 then "May" else if m = 6 then "June"
  else if m = 7 then "July" else if m = 8 then "August" else if m = 9 then "September"
  else if m = 10 then "October" else if m = 11 then "November" else "December"

/-- The heading of a month. -/
def monthTitle (y m : Int) (printYear : Bool) : Str :=
  (monthName m).toList ++ (if printYear then ' ' :: numeral y else [])

/-- The lines of month `m` in the rendering of a year, given the rows of its grid. -/
def monthBlock (y m : Int) (rows : List Str) : List Str :=
  (List.replicate ((28 - (monthTitle y m false).length) / 2) ' ' ++ monthTitle y m false) ::
    " Su  Mo  Tu  We  Th  Fr  Sa".toList :: rows

/-- The text shows the month: centred heading, names of the weekdays, grid. -/
def ShowsMonth (isSession : Int → Bool) (y m : Int) (text : Str) : Prop :=
  ∃ rows row, text = printed
      ((List.replicate ((28 - (monthTitle y m true).length) / 2) ' ' ++ monthTitle y m true) ::
        " Su  Mo  Tu  We  Th  Fr  Sa".toList :: rows) ++ ['\n'] ∧
    MonthGrid isSession y m rows row

/-- The text shows the year: the centred year, then the quarters, separated by empty lines, each with its
three months side by side. -/
def ShowsYear (isSession : Int → Bool) (y : Int) (text : Str) : Prop :=
  ∃ (rows : Int → List Str) (row : Int → Int → Nat) (quarter : Int → List Str),
    (∀ m, 1 ≤ m ∧ m ≤ 12 → MonthGrid isSession y m (rows m) (row m)) ∧
    text = List.replicate ((88 - (numeral y).length) / 2) ' ' ++ numeral y ++ ['\n'] ++
      ['\n', '\n'].intercalate [['\n'].intercalate (quarter 0), ['\n'].intercalate (quarter 1),
        ['\n'].intercalate (quarter 2), ['\n'].intercalate (quarter 3)] ++ ['\n'] ∧
    ∀ q, 0 ≤ q ∧ q ≤ 3 →
      (∀ m, 3 * q + 1 ≤ m ∧ m ≤ 3 * q + 3 → (monthBlock y m (rows m)).length ≤ (quarter q).length) ∧
      (∃ m, (3 * q + 1 ≤ m ∧ m ≤ 3 * q + 3) ∧ (monthBlock y m (rows m)).length = (quarter q).length) ∧
      ∀ r line, (quarter q)[r]? = some line → Shows line (sideBySide
        [monthBlock y (3 * q + 1) (rows (3 * q + 1)), monthBlock y (3 * q + 2) (rows (3 * q + 2)),
          monthBlock y (3 * q + 3) (rows (3 * q + 3))] 28 r)

end TC.Spec
