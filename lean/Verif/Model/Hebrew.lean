import Verif.Model.Holiday

/-!
# The Hebrew calendar and `tase_holidays.py`

`/repo/trading_calendars/tase_holidays.py` computes dates with pyluach 1.2.1 (`dates.HebrewDate`,
`dates.GregorianDate`, `hebrewcal.Year`), whose arithmetic is modelled first.  Months are numbered as in
pyluach, from Nisan (1); the year begins with Tishrei (7).
-/

namespace TC.Hebrew

/-- `hebrewcal.Year.leap`, `_is_leap` (pyluach, as used in `tase_holidays.py` line 37). -/
def leap (h : Int) : Bool := decide ((7 * h + 1) % 19 < 7)

/-- `_elapsed_months`: months before the first of Tishrei of year `h` (pyluach, as used in `tase_holidays.py` lines
32-97). -/
def elapsedMonths (h : Int) : Int := (235 * h - 234) / 19

/-- `parts_elapsed` of `_elapsed_days` (pyluach, as used in `tase_holidays.py` lines 32-97). -/
def partsElapsed (m : Int) : Int := 204 + 793 * (m % 1080)

/-- `hours_elapsed` of `_elapsed_days` (pyluach, as used in `tase_holidays.py` lines 32-97). -/
def hoursElapsed (m : Int) : Int := 5 + 12 * m + 793 * (m / 1080) + partsElapsed m / 1080

/-- `conjunction_day` of `_elapsed_days` (pyluach, as used in `tase_holidays.py` lines 32-97). -/
def conjunctionDay (m : Int) : Int := 1 + 29 * m + hoursElapsed m / 24

/-- `conjunction_parts` of `_elapsed_days` (pyluach, as used in `tase_holidays.py` lines 32-97). -/
def conjunctionParts (m : Int) : Int := 1080 * (hoursElapsed m % 24) + partsElapsed m % 1080

/-- The first `if` of `_elapsed_days` (pyluach, as used in `tase_holidays.py` lines 32-97). -/
def alternativeDay (h : Int) : Int :=
  let day := conjunctionDay (elapsedMonths h)
  let parts := conjunctionParts (elapsedMonths h)
  if 19440 ≤ parts ∨ (day % 7 = 2 ∧ 9924 ≤ parts ∧ leap h = false) ∨
      (day % 7 = 1 ∧ 16789 ≤ parts ∧ leap (h - 1) = true) then day + 1
  else day

/-- `_elapsed_days`: the day on which year `h` begins (pyluach, as used in `tase_holidays.py` lines 32-97). -/
def elapsedDays (h : Int) : Int :=
  if [0, 3, 5].contains (alternativeDay h % 7) then alternativeDay h + 1 else alternativeDay h

/-- `_days_in_year` (pyluach, as used in `tase_holidays.py` lines 32-97). -/
def daysInYear (h : Int) : Int := elapsedDays (h + 1) - elapsedDays h

/-- `_month_length`, with `_long_cheshvan` and `_short_kislev`.  (A month outside 1-13 raises an error
in pyluach; it does not occur.) (pyluach, as used in `tase_holidays.py` lines 32-97) -/
def monthLength (h m : Int) : Int :=
  if [1, 3, 5, 7, 11].contains m then 30
  else if [2, 4, 6, 10, 13].contains m then 29
  else if m = 12 then (if leap h then 30 else 29)
  else if m = 8 then (if daysInYear h % 10 = 5 then 30 else 29)
  else if daysInYear h % 10 = 3 then 29 else 30

/-- The months of a year in their order (`HebrewDate.jd`) (pyluach, as used in `tase_holidays.py` lines 32-97). -/
def months (h : Int) : List Int :=
  [7, 8, 9, 10, 11, 12] ++ (if leap h then [13] else []) ++ [1, 2, 3, 4, 5, 6]

/-- The loop of `HebrewDate.jd`: days of the months before month `m` (pyluach, as used in `tase_holidays.py` lines
32-97). -/
def daysBefore (h m : Int) : List Int → Int
  | [] => 0
  | x :: xs => if x = m then 0 else monthLength h x + daysBefore h m xs

/-- The day number (days since 1970-01-01) of day 0 of `_elapsed_days`: Julian day 347996.5, while
1970-01-01 is 2440587.5 (pyluach, as used in `tase_holidays.py` lines 32-97). -/
def epoch : Int := -2092591

/-- `HebrewDate(h, m, k).to_greg()`, as a day number (pyluach, as used in `tase_holidays.py` lines 117-208). -/
def dayOf (h m k : Int) : Int := epoch + elapsedDays h + daysBefore h m (months h) + (k - 1)

/-- The `while` loop of `JulianDay.to_heb`, with fuel.  The year it starts from is fuel enough: year 1
begins on day 1 and earlier dates are refused (pyluach, as used in `tase_holidays.py` line 110). -/
def yearDown (e : Int) : Nat → Int → Int
  | 0, h => h
  | n + 1, h => if e < elapsedDays h then yearDown e n (h - 1) else h

/-- The year of `JulianDay.to_heb()` of day number `d` (pyluach, as used in `tase_holidays.py` line 110). -/
def yearOf (d : Int) : Int :=
  let e := d - epoch
  yearDown e (e / 365 + 2).toNat (e / 365 + 2)

/-- `weekday()` of pyluach: 1 for Sunday to 7 for Saturday (pyluach, as used in `tase_holidays.py` lines 142-150 and
173). -/
def weekday (d : Int) : Int := (TC.weekday d + 1) % 7 + 1

end TC.Hebrew

namespace TC.TaseHolidays

/-- `_purim`, `tase_holidays.py` lines 32-37 (then `to_greg`). -/
def purimOf (h : Int) : Int := Hebrew.dayOf h (if Hebrew.leap h then 13 else 12) 14

/-- `_passover`, `tase_holidays.py` lines 40-45. -/
def passoverOf (h : Int) : Int := Hebrew.dayOf h 1 15

/-- `_memorial_day`, `tase_holidays.py` lines 48-54. -/
def memorialDayOf (h : Int) : Int := Hebrew.dayOf h 2 4

/-- `_pentecost`, `tase_holidays.py` lines 57-61. -/
def pentecostOf (h : Int) : Int := Hebrew.dayOf h 3 6

/-- `_fast_day`, `tase_holidays.py` lines 64-68. -/
def fastDayOf (h : Int) : Int := Hebrew.dayOf h 5 9

/-- `_new_year`, `tase_holidays.py` lines 71-76. -/
def newYearOf (h : Int) : Int := Hebrew.dayOf h 7 1

/-- `_yom_kippur`, `tase_holidays.py` lines 79-83. -/
def yomKippurOf (h : Int) : Int := Hebrew.dayOf h 7 10

/-- `_sukkoth`, `tase_holidays.py` lines 86-90. -/
def sukkothOf (h : Int) : Int := Hebrew.dayOf h 7 15

/-- `_simchat_torah`, `tase_holidays.py` lines 93-97. -/
def simchatTorahOf (h : Int) : Int := Hebrew.dayOf h 7 22

/-- `_hebrew_year`, `tase_holidays.py` lines 100-110. -/
def hebrewYear (y : Int) : Int := Hebrew.yearOf (dayOf y 1 1)

/-- `purim`, `tase_holidays.py` lines 117-121. -/
def purim (y : Int) : Int := purimOf (hebrewYear y)

/-- `passover`, `tase_holidays.py` lines 124-129. -/
def passover (y : Int) : Int := passoverOf (hebrewYear y)

/-- `memorial_day`, `tase_holidays.py` lines 132-154. -/
def memorialDay (y : Int) : Int :=
  let d := memorialDayOf (hebrewYear y)
  if Hebrew.weekday d = 5 then d - 1
  else if Hebrew.weekday d = 6 then d - 2
  else if Hebrew.weekday d = 7 then d + 1
  else d

/-- `pentecost`, `tase_holidays.py` lines 157-162. -/
def pentecost (y : Int) : Int := pentecostOf (hebrewYear y)

/-- `fast_day`, `tase_holidays.py` lines 165-177. -/
def fastDay (y : Int) : Int :=
  let d := fastDayOf (hebrewYear y)
  if Hebrew.weekday d = 7 then d + 1 else d

/-- `new_year`, `tase_holidays.py` lines 180-185. -/
def newYear (y : Int) : Int := newYearOf (hebrewYear (y + 1))

/-- `yom_kippur`, `tase_holidays.py` lines 188-193. -/
def yomKippur (y : Int) : Int := yomKippurOf (hebrewYear (y + 1))

/-- `sukkoth`, `tase_holidays.py` lines 196-200. -/
def sukkoth (y : Int) : Int := sukkothOf (hebrewYear (y + 1))

/-- `simchat_torah`, `tase_holidays.py` lines 203-208. -/
def simchatTorah (y : Int) : Int := simchatTorahOf (hebrewYear (y + 1))

/-- The offsets `_Purim`, …, `tase_holidays.py` lines 231-322, for the years of `datetime`.  Python has
no dates outside the years 1 to 9999, so the offsets are never applied there; the model gives them June 1
so that a rule is a total function. -/
def offset (f : Int → Int) : Offset :=
  .annual fun y => if 1 ≤ y ∧ y ≤ 9998 then f y else dayOf y 6 1

/-- A holiday of `tase_holidays.py` lines 325-353: from January 1 to the next date of `f`, then `k` days
on. -/
def holiday (f : Int → Int) (k : Option Int) : Rule :=
  { month := 1, day := 1
    offsets := offset f :: (match k with | none => [] | some k => [.days k]) }

end TC.TaseHolidays
