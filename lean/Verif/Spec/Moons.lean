import Verif.Spec.RuleBooks
import Verif.Model.Exchanges.LunisolarHolidays
import Verif.Model.Exchanges.CommonHolidays
import Verif.Model.Exchanges.XklsHolidays
import Verif.Model.Exchanges.XbkkHolidays
import Verif.Model.Exchanges.Xidx
import Verif.Model.Exchanges.Xkar
import Verif.Model.Exchanges.Xphs
import Verif.Model.Exchanges.XtksHolidays

/-! # Specification vocabulary: the calendars the tables of festivals are written in

Months of the Chinese, Islamic and Thai calendars begin about new moon.  Here the moons are counted, moon 0 being the
one of 2000-01-07 (China), and a moon lasts 29.530589 days on average; nothing else of astronomy is used. -/

namespace TC.Spec

/-- Day `d` is at most `early` millionths of a day before and at most `late` after the mean day of new moon `k`. -/
def NearMoon (early late k d : Int) : Prop :=
  10962590000 + 29530589 * k - early ≤ 1000000 * d ∧ 1000000 * d ≤ 10962590000 + 29530589 * k + late

/-! ### The Chinese calendar -/

/-- The moon with which month `m` begins (`13`: the first month of the next year), if month 1 begins with moon `k`
and a leap month follows month `leap` (`0`: no leap month). -/
def chineseMoon (k : Int) (leap m : Nat) : Int := k + m - 1 + if leap ≠ 0 ∧ leap < m then 1 else 0

/-- Day `d` is day `n` of month `m`, as far as the moons tell: the month begins between 1.3 days
before and 0.9 days after the mean moon. -/
def ChineseDate (k : Int) (leap m : Nat) (n d : Int) : Prop :=
  NearMoon 1300000 900000 (chineseMoon k leap m) (d - (n - 1))

/-- The tables of `lunisolar_holidays.py` with the month and the day they are meant to record (comments and script
names at lines 9-14, 211-222, 319-324, 421-426, 522-526). -/
def chineseFestivals : List (List Int × Nat × Int) :=
  [(LunisolarHolidays.chineseLunarNewYearDates, 1, 1),
   (LunisolarHolidays.chineseBuddhasBirthdayDates, 4, 8),
   (LunisolarHolidays.dragonBoatFestivalDates, 5, 5),
   (LunisolarHolidays.midAutumnFestivalDates, 8, 15),
   (LunisolarHolidays.doubleNinthFestivalDates, 9, 9)]

/-- `d` is the date the table has for year `y`. -/
def EntryOf (table : List Int) (y d : Int) : Prop :=
  d ∈ table ∧ InYear d y ∧ ∀ d' ∈ table, InYear d' y → d' = d

/-! ### The Islamic calendar: twelve months always -/

/-- The moon with which month `m` of the year `h` after the hijra begins (1421 began on 2000-04-06). -/
def islamicMoon (h m : Int) : Int := 12 * (h - 1421) + m + 2

/-- A table of days off for an Islamic festival on day `day` of month `month`; the days may be `early` millionths of a
day before the mean moon to `late` after it, as months begin with a sighting and feasts last several days or are made
up. -/
structure IslamicTable where
  dates : List Int
  month : Int
  day : Int
  early : Int
  late : Int

/-- Day `d` belongs to the festival in year `h`. -/
def IslamicTable.In (t : IslamicTable) (h d : Int) : Prop :=
  NearMoon t.early t.late (islamicMoon h t.month) (d - (t.day - 1))

/-- The tables with an entry for each year. -/
def islamicYearly : List (IslamicTable × Int × Int) :=
  [(⟨CommonHolidays.eidAlFitrFirstDay, 10, 1, 200000, 1800000⟩, 1401, 1471),
   (⟨CommonHolidays.eidAlAdhaFirstDay, 12, 10, 800000, 2000000⟩, 1401, 1471),
   (⟨XklsHolidays.muharram, 1, 1, 300000, 2700000⟩, 1401, 1471),
   (⟨XklsHolidays.malaysiaNuzulAlQuran, 9, 17, 100000, 2000000⟩, 1435, 1471),
   (⟨XklsHolidays.malaysiaEidAlFitrFirstDay, 10, 1, 200000, 2100000⟩, 1401, 1471),
   (⟨XklsHolidays.malaysiaEidAlAdha, 12, 10, 300000, 3800000⟩, 1401, 1471),
   (⟨Xphs.philippinesEidAlFitr, 10, 1, 0, 2700000⟩, 1432, 1440),
   (⟨Xphs.philippinesEidAlAdha, 12, 10, 0, 2900000⟩, 1432, 1440)]

/-- The table of the prophet's birthday in Malaysia. -/
def mawlidTable : IslamicTable := ⟨XklsHolidays.muhammadBirthday, 3, 12, 400000, 4100000⟩

/-- The tables that have only days off: several days for a feast, none when it is at a weekend. -/
def islamicDaysOff : List IslamicTable :=
  [⟨Xidx.islamicNewYear, 1, 1, 300000, 2900000⟩,
   ⟨Xidx.eidAlFitr, 10, 1, 2600000, 6600000⟩,
   ⟨Xidx.eidAlAdha, 12, 10, 300000, 2500000⟩,
   ⟨Xidx.birthOfProphetMuhammad, 3, 12, 0, 2700000⟩,
   ⟨Xkar.jumaTulWida, 9, 30, 5100000, 2000000⟩,
   ⟨Xkar.eidUlFitr, 10, 1, 1700000, 5000000⟩,
   ⟨Xkar.eidUlAzha, 12, 10, 0, 5100000⟩,
   ⟨Xkar.ashura, 1, 9, 0, 3700000⟩,
   ⟨Xkar.eidMiladUnNabi, 3, 12, 0, 2900000⟩]

/-- The table of the night journey in Indonesia. -/
def israTable : IslamicTable := ⟨Xidx.israMikraj, 7, 27, 500000, 2800000⟩

/-! ### The Thai calendar -/

/-- Day `d` is a full moon (day 15) of moon `k`, or at most about two days later, when the day off is made up. -/
def FullMoon (k d : Int) : Prop := NearMoon 900000 2500000 k (d - 14)

/-! ### Equinoxes -/

/-- The day in March and September of the equinoxes in Japan, from 1980 to 2099: 0.8431 (.2488) days after the
beginning of March 20 (September 23) in 1980, 365.242194 days a year. -/
def vernalDay (y : Int) : Int := (20843100 + 242194 * (y - 1980)) / 1000000 - (y - 1980) / 4

/-- See `vernalDay`. -/
def autumnalDay (y : Int) : Int := (23248800 + 242194 * (y - 1980)) / 1000000 - (y - 1980) / 4

/-- `d` is the day off for a holiday on `u`: a Sunday is made up on Monday. -/
def MadeUp (u d : Int) : Prop := (IsWeekday u 6 ∧ d = u + 1) ∨ (¬ IsWeekday u 6 ∧ d = u)

end TC.Spec
