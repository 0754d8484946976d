import Verif.Model.Precomputed
import Verif.Model.LunisolarCal

/-!
# The commands of `/repo/etc/lunisolar` that print dates

From the directories with longitudes to the text.  Longitudes and distances are any types; what is done with
floating point numbers is in `Sky`.
-/

namespace TC.Lunisolar
open Tcal

/-- The operations on longitudes, `etc/lunisolar` lines 904-907, 1054, 1180, 1216-1220 and 1235-1239. -/
structure Sky (α β : Type) where
  /-- `np.abs(solar - lunar)` -/
  dist : α → α → β
  /-- `op.lt` -/
  lt : β → β → Bool
  /-- `< 0.1` -/
  close : β → Bool
  /-- `np.abs(longitude - 3 * np.pi / 2)` -/
  solstice : α → β
  /-- `np.abs(np.fmod(longitude, np.pi / 6) - 0)` -/
  zhongqi : α → β
  /-- `np.abs(longitude - np.pi / 12)` -/
  qingming : α → β

/-- `datetime64[m]` as instants in nanoseconds, `pd.to_datetime` in `etc/lunisolar` line 1096. -/
def instants (minutes : List Int) : List Int := minutes.map (· * MINUTE)

/-- What `chinese_month_start` gets or computes first: `load_new_moons(..., return_solar_data=True)`, the winter
solstices and the `zhongqi` without the first; `etc/lunisolar` lines 911-948, 1216-1220 and 1235-1239.
Simplified: the `zhongqi` are computed before the months of the solstices are looked up. -/
def skyData {α β : Type} (S : Sky α β) (solar lunar : Dir α) : Py (List Int × List Int × List Int) := do
  let moons ← loadNewMoons S.dist S.lt S.close solar lunar
  let (elon, minutes) ← load solar
  let solstices ← minutesAtPhase S.lt (elon.map S.solstice) minutes
  let zhongqi ← minutesAtPhase S.lt (elon.map S.zhongqi) minutes
  return (instants moons, instants solstices, instants (zhongqi.drop 1))

/-- `weekday_name` of a day, `etc/lunisolar` line 832. -/
def weekdayName (d : Int) : Str :=
  ["Monday".toList, "Tuesday".toList, "Wednesday".toList, "Thursday".toList, "Friday".toList, "Saturday".toList,
    "Sunday".toList].getD (weekday d).toNat []

/-- `print_dates`, `etc/lunisolar` lines 819-838.  `named`: `weekday_name` exists, as in pandas before 1.0. -/
def printDates (named : Bool) (dates : List Int) (weekday : Bool) : Py Str :=
  if weekday then
    if named then .ok (dates.flatMap fun d => TestCsv.dateText d ++ ' ' :: (weekdayName d ++ ['\n']))
    else .error .attributeError
  else .ok (dates.flatMap fun d => TestCsv.dateText d ++ ['\n'])

/-- `chinese_new_year` without `--output`, `etc/lunisolar` lines 1130-1152: what is printed. -/
def chineseNewYear {α β : Type} (S : Sky α β) (named : Bool) (solar lunar : Dir α) (weekday : Bool) : Py Str := do
  let (moons, solstices, zhongqi) ← skyData S solar lunar
  let years ← calculateNewYear moons solstices zhongqi
  printDates named (years.map chineseDate) weekday

/-- `qingming_festival` without `--output`, `etc/lunisolar` lines 1175-1190. -/
def qingmingFestival {α β : Type} (S : Sky α β) (named : Bool) (solar : Dir α) (weekday : Bool) : Py Str := do
  let (elon, minutes) ← load solar
  let ms ← minutesAtPhase S.lt (elon.map S.qingming) minutes
  printDates named ((instants ms).map chineseDate) weekday

/-- The commands that print a day of a month (`etc/lunisolar` lines 1326-1512). -/
inductive Festival where
  | buddhasBirthday
  | dragonBoat
  | midAutumn
  | doubleNinth

/-- `month` and `day` in `china_buddhas_birthday`, `dragon_boat_festival`, `mid_autumn_festival` and
`double_ninth_festival`, `etc/lunisolar` lines 1361-1366, 1408-1413, 1455-1460 and 1502-1507. -/
def Festival.monthDay : Festival → Int × Int
  | .buddhasBirthday => (4, 8)
  | .dragonBoat => (5, 5)
  | .midAutumn => (8, 15)
  | .doubleNinth => (9, 9)

/-- The four commands without `--output`, `etc/lunisolar` lines 1353-1370, 1400-1417, 1447-1464 and 1494-1511. -/
def festival {α β : Type} (S : Sky α β) (named : Bool) (f : Festival) (solar lunar : Dir α) (weekday : Bool) :
    Py Str := do
  let (moons, solstices, zhongqi) ← skyData S solar lunar
  let dates ← nthDayOfNthMonth moons solstices zhongqi f.monthDay.1 f.monthDay.2
  printDates named dates weekday

/-- `chinese_cal`, `etc/lunisolar` lines 1582-1635, from the directories on. -/
def chineseCalFrom {α β : Type} (S : Sky α β) (solar lunar : Dir α) (month : Int) (year : Option Int) : Py Str := do
  let (moons, solstices, zhongqi) ← skyData S solar lunar
  chineseCal moons solstices zhongqi month year

end TC.Lunisolar
