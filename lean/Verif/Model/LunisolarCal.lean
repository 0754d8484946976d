import Verif.Model.Lunisolar
import Verif.Model.Tcal

/-!
# The command `chinese-cal` of `/repo/etc/lunisolar`

From the new moons, solstices and zhongqi on.  Strings are lists of characters, as in the model of `tcal`; a
command either prints its whole text or raises before printing anything.
-/

namespace TC.Lunisolar
open Tcal

/-- `pd.date_range(month_start, month_end, closed='left')`, `etc/lunisolar` line 1522, as day numbers. -/
def lunarDays (start stop : Int) : List Int := (List.range (stop - start).toNat).map fun (i : Nat) => start + i

/-- `d.month_name()`, `etc/lunisolar` line 1529. -/
def gregorianMonth (d : Int) : Str := Tcal.months.getD (monthOf d - 1).toNat []

/-- What the loop of `etc/lunisolar` lines 1534-1540 prints for day `d`. -/
def lunarDayText (d : Int) : Str :=
  [if weekday d = 6 then '\n' else ' '] ++ rjust (decimal (dayOfMonth d)) 2

/-- `_render_month`, `etc/lunisolar` lines 1514-1543.  `months` are instants; `days[0]` of no days raises
`IndexError`. -/
def renderLunarMonth (year : Int) (months : List Int) (month : Int) (printYear : Bool) : Py Str := do
  let start ← pyIndex months (month - 1)
  let stop ← pyIndex months month
  let days := lunarDays (chineseDate start) (chineseDate stop)
  let title := "Lunar Month ".toList ++ decimal month ++ (if days.length > 30 then "(+)".toList else []) ++
    (if printYear then ' ' :: decimal year else [])
  let first ← pyIndex days 0
  let last ← pyIndex days (-1)
  return rstrip (center title 20) ++ ['\n'] ++
    rstrip (center (gregorianMonth first ++ ['-'] ++ gregorianMonth last) 20) ++ ['\n'] ++
    "Su Mo Tu We Th Fr Sa".toList ++ ['\n'] ++
    blanks (3 * ((weekday first + 1) % 7) - 1) ++ days.flatMap lunarDayText ++ ['\n']

/-- `_concat_lines`, `etc/lunisolar` lines 1546-1564: the same text as in `tcal.py`, lines 79-97. -/
def concatLunar (strings : List Str) (width : Int) : Py Str := concatLines strings width

/-- `chinese_cal`, `etc/lunisolar` lines 1582-1635: what is printed.  `year` is `none` if there is one argument
only, which is then the year.  `chinese_new_year.astype('M8[Y]')` is the year in UTC. -/
def chineseCal (newMoons solstices zhongqi : List Int) (month : Int) (year : Option Int) : Py Str := do
  let fullYear := year.isNone
  let y := year.getD month
  let (months, _) ← chineseMonthStart newMoons solstices zhongqi
  let newYears ← calculateNewYear newMoons solstices zhongqi
  match newYears.filter (fun u => decide (yearOf (u / DAY) = y)) with
  | [] => .error (.valueError ("data does not contain " ++ String.ofList (decimal y)))
  | given :: _ =>
    let yearMonths := months.drop (searchLeft months given)
    if !fullYear then
      let text ← renderLunarMonth y yearMonths month true
      return text ++ ['\n']
    else
      let monthStrings ← [0, 1, 2, 3].mapM fun row => [0, 1, 2].mapM fun column =>
        renderLunarMonth y yearMonths (row * 3 + column + 1) false
      let rows ← monthStrings.mapM fun cs => concatLunar cs 20
      return rstrip (center (decimal y) 66 ++ ['\n']) ++ ['\n'] ++ join ['\n', '\n'] rows ++ ['\n']

end TC.Lunisolar
