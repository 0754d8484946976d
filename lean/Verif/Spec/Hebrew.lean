import Verif.Spec.Holiday

/-!
# Specification vocabulary for the Hebrew calendar

The calendar as it is defined in law: the mean new moons (molads) counted from the first one, the 19-year
cycle of leap years, the four postponements of the New Year, and the fixed month lengths from Nisan to
Tishrei.  Nothing here mentions how the dates are computed.
-/

namespace TC.Spec.Hebrew

/-- Years 3, 6, 8, 11, 14, 17 and 19 of the cycle have a thirteenth month. -/
def Leap (h : Int) : Prop :=
  h % 19 = 3 ∨ h % 19 = 6 ∨ h % 19 = 8 ∨ h % 19 = 11 ∨ h % 19 = 14 ∨ h % 19 = 17 ∨ h % 19 = 0

instance (h : Int) : Decidable (Leap h) := by unfold Leap; infer_instance

/-- Before year `h` there have been `n` months since year 1. -/
inductive MonthsBefore : Int → Int → Prop where
  | first : MonthsBefore 1 0
  | common {h n} : MonthsBefore h n → ¬ Leap h → MonthsBefore (h + 1) (n + 12)
  | leap {h n} : MonthsBefore h n → Leap h → MonthsBefore (h + 1) (n + 13)

/-- There are 1080 parts in an hour. -/
def partsOfDay : Int := 24 * 1080

/-- A month from molad to molad: 29 days, 12 hours, 793 parts. -/
def lunation : Int := 29 * partsOfDay + 12 * 1080 + 793

/-- The molad of Tishrei of year `h`, on day `D` and `p` parts after its beginning (at 6 p.m.).  Days are
counted so that the molad of year 1 was on day 1, a Monday, at 5 hours and 204 parts. -/
def Molad (h D p : Int) : Prop :=
  ∃ n, MonthsBefore h n ∧ 0 ≤ p ∧ p < partsOfDay ∧
    D * partsOfDay + p = partsOfDay + (5 * 1080 + 204) + n * lunation

/-- With day 1 a Monday, day `D` is a Sunday (0), Monday (1), …, Saturday (6). -/
def OnDay (D w : Int) : Prop := D % 7 = w

/-- The molad is at or after noon (18 hours after 6 p.m.): *molad zaken*. -/
def OldMolad (p : Int) : Prop := 18 * 1080 ≤ p

/-- A Tuesday at or after 9 hours 204 parts, in a common year: *GaTaRaD*. -/
def Gatarad (h D p : Int) : Prop := OnDay D 2 ∧ 9 * 1080 + 204 ≤ p ∧ ¬ Leap h

/-- A Monday at or after 15 hours 589 parts, following a leap year: *BeTUTaKPaT*. -/
def Betutakpat (h D p : Int) : Prop := OnDay D 1 ∧ 15 * 1080 + 589 ≤ p ∧ Leap (h - 1)

/-- The New Year is not celebrated on Sundays, Wednesdays and Fridays: *lo ADU rosh*. -/
def Adu (D : Int) : Prop := OnDay D 0 ∨ OnDay D 3 ∨ OnDay D 5

/-- Year `h` begins on day `D`: the day of the molad, or the next one for the three reasons above; a
Sunday, Wednesday or Friday gives way to the next day. -/
def Begins (h D : Int) : Prop :=
  ∃ M p D', Molad h M p ∧
    (((OldMolad p ∨ Gatarad h M p ∨ Betutakpat h M p) ∧ D' = M + 1) ∨
     (¬ (OldMolad p ∨ Gatarad h M p ∨ Betutakpat h M p) ∧ D' = M)) ∧
    ((Adu D' ∧ D = D' + 1) ∨ (¬ Adu D' ∧ D = D'))

/-- Day number `d` (counted from 1970-01-01) is the New Year's day of Hebrew year `h`.  Day 1 was Monday,
7 October 3761 BCE of the Julian calendar, 2092590 days before 1970-01-01. -/
def RoshHashanah (h d : Int) : Prop := Begins h (d + 2092591)

/-- Hebrew year `h` contains day `d`. -/
def HebrewYear (h d : Int) : Prop :=
  ∃ a b, RoshHashanah h a ∧ RoshHashanah (h + 1) b ∧ a ≤ d ∧ d < b

/-- Passover, the 15th of Nisan, of Hebrew year `h`: Nisan has 30 days, Iyar 29, Sivan 30, Tammuz 29, Av
30 and Elul 29, so the next New Year is 163 days later. -/
def Passover (h d : Int) : Prop := RoshHashanah (h + 1) (d + 163)

/-- Purim, the 14th of the month before Nisan, which has 29 days. -/
def Purim (h d : Int) : Prop := Passover h (d + 30)

/-- The 4th of Iyar. -/
def Iyar4 (h d : Int) : Prop := Passover h (d - 19)

/-- Pentecost, the 6th of Sivan. -/
def Pentecost (h d : Int) : Prop := Passover h (d - 50)

/-- The 9th of Av. -/
def Av9 (h d : Int) : Prop := Passover h (d - 112)

/-- Day `k` of Tishrei, which has 30 days. -/
def Tishrei (k h d : Int) : Prop := RoshHashanah h (d - (k - 1))

/-! ### Holidays of a Gregorian year -/

/-- The Hebrew year containing January 1 of Gregorian year `y`. -/
def WinterYear (y h : Int) : Prop := ∃ d, DayNumber ⟨y, 1, 1⟩ d ∧ HebrewYear h d

/-- The Hebrew year containing December 31 of Gregorian year `y`. -/
def AutumnYear (y h : Int) : Prop := ∃ d, DayNumber ⟨y, 12, 31⟩ d ∧ HebrewYear h d

/-- Memorial day as the comments of `memorial_day` (`tase_holidays.py` lines 138-152) have it: the 4th of
Iyar; on a Thursday one day earlier, on a Friday two days earlier, on a Saturday one day later. -/
def MemorialDay (h d : Int) : Prop :=
  (Iyar4 h d ∧ ¬ IsWeekday d 3 ∧ ¬ IsWeekday d 4 ∧ ¬ IsWeekday d 5) ∨
  (Iyar4 h (d + 1) ∧ IsWeekday (d + 1) 3) ∨ (Iyar4 h (d + 2) ∧ IsWeekday (d + 2) 4) ∨
  (Iyar4 h (d - 1) ∧ IsWeekday (d - 1) 5)

/-- Memorial day by Israeli law since 2004: as above, but one day later if the 4th of Iyar is a *Sunday*
(so that it does not begin on a Saturday evening). -/
def LawfulMemorialDay (h d : Int) : Prop :=
  (Iyar4 h d ∧ ¬ IsWeekday d 3 ∧ ¬ IsWeekday d 4 ∧ ¬ IsWeekday d 6) ∨
  (Iyar4 h (d + 1) ∧ IsWeekday (d + 1) 3) ∨ (Iyar4 h (d + 2) ∧ IsWeekday (d + 2) 4) ∨
  (Iyar4 h (d - 1) ∧ IsWeekday (d - 1) 6)

/-- The fast of the 9th of Av, on the Sunday if that is a Saturday. -/
def FastDay (h d : Int) : Prop :=
  (Av9 h d ∧ ¬ IsWeekday d 5) ∨ (Av9 h (d - 1) ∧ IsWeekday (d - 1) 5)

/-- Day `d` is a holiday of the Tel Aviv Stock Exchange in Gregorian year `y` (docstring of
`XTAEExchangeCalendar`, `exchange_calendar_xtae.py` lines 40-59). -/
def TelAvivHoliday (y d : Int) : Prop :=
  (∃ h, WinterYear y h ∧
    (Purim h d ∨ Passover h (d + 1) ∨ Passover h d ∨ Passover h (d - 5) ∨ Passover h (d - 6) ∨
     MemorialDay h d ∨ MemorialDay h (d - 1) ∨ Pentecost h (d + 1) ∨ Pentecost h d ∨ FastDay h d)) ∨
  (∃ h, AutumnYear y h ∧
    (Tishrei 1 h (d + 1) ∨ Tishrei 1 h d ∨ Tishrei 2 h d ∨ Tishrei 9 h d ∨ Tishrei 10 h d ∨
     Tishrei 14 h d ∨ Tishrei 15 h d ∨ Tishrei 21 h d ∨ Tishrei 22 h d))

/-- Election days (`exchange_calendar_xtae.py` lines 108-122). -/
def telAvivClosures : List (Int × Int × Int) := [(2019, 4, 9), (2019, 9, 17), (2020, 3, 2), (2021, 3, 23)]

end TC.Spec.Hebrew
