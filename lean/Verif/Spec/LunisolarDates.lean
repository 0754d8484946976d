import Verif.Spec.Precomputed
import Verif.Spec.LunisolarCal
import Verif.Model.LunisolarDates

/-! # What the commands of `etc/lunisolar` are to print -/

namespace TC.Spec.Lunisolar
open Tcal

/-- In order, the minutes before `stop` whose distance is less than that of the minute before and that of the
minute after. -/
def Closest {β : Type} (lt : β → β → Bool) (dist : Int → β) (start stop : Int) (ms : List Int) : Prop :=
  ms.Pairwise (· < ·) ∧
    ∀ m, m ∈ ms ↔ start < m ∧ m + 1 < stop ∧ lt (dist m) (dist (m - 1)) = true ∧ lt (dist m) (dist (m + 1)) = true

/-- The new moons, the winter solstices and all zhongqi but the first of the minutes from `start` to `stop`, in
nanoseconds. -/
def Events {α β : Type} (S : TC.Lunisolar.Sky α β) (sun moon : Int → α) (start stop : Int)
    (newMoons solstices zhongqi : List Int) : Prop :=
  ∃ ms ss zs, NewMoons S.lt S.close (fun m => S.dist (sun m) (moon m)) start stop ms ∧
    Closest S.lt (fun m => S.solstice (sun m)) start stop ss ∧
    Closest S.lt (fun m => S.zhongqi (sun m)) start stop zs ∧
    newMoons = ms.map (· * 60000000000) ∧ solstices = ss.map (· * 60000000000) ∧
    zhongqi = zs.tail.map (· * 60000000000)

/-- The name of a weekday, 0 being Monday. -/
def dayName (w : Int) : String :=
  if w = 0 then "Monday" else if w = 1 then "Tuesday" else if w = 2 then "Wednesday" else if w = 3 then "Thursday"
  else if w = 4 then "Friday" else if w = 5 then "Saturday" else "Sunday"

/-- The line shows day `d`, with its weekday if asked for. -/
def DateLine (d : Int) (weekday : Bool) (line : Str) : Prop :=
  ∃ t, DateText d t ∧ (weekday = false → line = t) ∧
    (weekday = true → ∃ w, IsWeekday d w ∧ line = t ++ " ".toList ++ (dayName w).toList)

/-- The text shows the days, one in each line. -/
def ShowsDates (days : List Int) (weekday : Bool) (text : Str) : Prop :=
  ∃ lines : List Str, lines.length = days.length ∧
    (∀ (k : Nat) d line, days[k]? = some d → lines[k]? = some line → DateLine d weekday line) ∧
    text = (lines.map (· ++ "\n".toList)).flatten

/-- The number of the month less one, and the day, on which a festival is. -/
inductive Observed : TC.Lunisolar.Festival → Nat → Int → Prop
  /-- the 8th day of the 4th month -/
  | buddhasBirthday : Observed .buddhasBirthday 3 8
  /-- the 5th day of the 5th month -/
  | dragonBoat : Observed .dragonBoat 4 5
  /-- the 15th day of the 8th month -/
  | midAutumn : Observed .midAutumn 7 15
  /-- the 9th day of the 9th month -/
  | doubleNinth : Observed .doubleNinth 8 9

end TC.Spec.Lunisolar
