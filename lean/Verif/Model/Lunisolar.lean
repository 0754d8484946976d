import Verif.Model.Zones

/-!
# The month arithmetic of `/repo/etc/lunisolar`

The script that computed the tables of `lunisolar_holidays.py`.  Instants are nanoseconds since the epoch (the
script has `datetime64[m]`).  The ephemeris, the files with precomputed longitudes and floating point are not
modelled: distances from a phase are a list of any type with a comparison.
-/

namespace TC.Lunisolar

/-- `local_cmp`, `etc/lunisolar` lines 98-134: `np.r_[False, f(arr[1:], arr[:-1])]` and
`np.r_[f(arr[:-1], arr[1:]), False]`, both true.  (The docstring has `f(arr[i - 1], arr[i])` for the first; the
code has `f(arr[i], arr[i - 1])`.) -/
def localCmp {α : Type} (f : α → α → Bool) (arr : List α) : List Nat :=
  let left := false :: List.zipWith f (arr.drop 1) arr.dropLast
  let right := List.zipWith f arr.dropLast (arr.drop 1) ++ [false]
  (List.range left.length).filter fun i => left.getD i false && right.getD i false

/-- `minutes_at_phase`, `etc/lunisolar` lines 1037-1054.  `dist` is `np.abs(longitude - phase)`. -/
def minutesAtPhase {α : Type} (lt : α → α → Bool) (dist : List α) (minutes : List Int) : Py (List Int) :=
  (localCmp lt dist).mapM fun (i : Nat) => pyIndex minutes i

/-- `calculate_new_moon`, `etc/lunisolar` lines 885-908.  `diff` is the distance of the longitudes of sun and
moon, `close` the test `< 0.1`. -/
def calculateNewMoon {α : Type} (lt : α → α → Bool) (close : α → Bool) (diff : List α)
    (minutes : List Int) : Py (List Int) :=
  ((localCmp lt diff).filter fun i => (diff[i]?).any close).mapM fun (i : Nat) => pyIndex minutes i

/-- `utc_to_chinese_date`, `etc/lunisolar` lines 1082-1100, as a day number. -/
def chineseDate (u : Int) : Int := (u + Zones.asiaShanghai.offsetAt u) / DAY

/-- `np.argmax` of a row of booleans: the first `True`, 0 if there is none; an empty row raises (`etc/lunisolar`
lines 1224 and 1243). -/
def argmax (row : List Bool) : Py Int :=
  if row = [] then .error (.valueError "attempt to get argmax of an empty sequence")
  else .ok ((row.findIdx? id).getD 0 : Nat)

/-- `(utc_to_chinese_date(new_moons) > utc_to_chinese_date(event)).argmax() - 1`, `etc/lunisolar` lines
1221-1224 and 1240-1243 (there with the sides of the comparison exchanged). -/
def monthIndex (newMoons : List Int) (event : Int) : Py Int := do
  let k ← argmax (newMoons.map fun m => decide (chineseDate event < chineseDate m))
  return k - 1

/-- The variables of the loop of `chinese_month_start`, `etc/lunisolar` lines 1226-1233: `next_sui_ix` with
`next_sui`, `prev_sui_ix`, what `get_next_sui_ix` has left, `seen_skipped_month`, `month_starts`. -/
structure Loop where
  next : Int × Int
  prev : Int
  rest : List (Int × Int)
  seen : Bool
  out : List Int

/-- One round of the loop, `etc/lunisolar` lines 1247-1272.  `possible` is `in possible_skipped_months`. -/
def Loop.step (possible : Int → Bool) (s : Loop) (m : Int) : Loop :=
  let seen := if m = s.next.2 then false else s.seen
  let skip := possible m && !seen && decide (s.next.1 - s.prev ≠ 12)
  let s' : Loop :=
    if m = s.next.2 then
      match s.rest with
      | [] => { s with prev := s.next.1 }
      | n :: rest => { s with prev := s.next.1, next := n, rest }
    else s
  { s' with seen := if skip then true else seen, out := if skip then s.out else s.out ++ [m] }

/-- `chinese_month_start(..., return_11th_month=True)`, `etc/lunisolar` lines 1193-1280, from the new moons, the
winter solstices (lines 1216-1220) and the `zhongqi` without the first (lines 1235-1239).  Simplified:
`new_moons[next_sui_ix]` is looked up for all sui before the loop; the indices are never out of range, so this
makes no difference.  Without solstice the first `get_next_sui_ix()` raises `StopIteration`. -/
def chineseMonthStart (newMoons solstices zhongqi : List Int) : Py (List Int × List Nat) := do
  let suiIx ← solstices.mapM (monthIndex newMoons)
  let sui ← suiIx.mapM fun i => do return (i, ← pyIndex newMoons i)
  let withIx ← zhongqi.mapM (monthIndex newMoons)
  let withZhongqi ← withIx.mapM (pyIndex newMoons)
  match sui with
  | [] => .error (.valueError "StopIteration")
  | first :: rest =>
    let s := newMoons.foldl (Loop.step fun m => !withZhongqi.contains m)
      { next := first, prev := first.1 - 13, rest, seen := false, out := [] }
    return (s.out, sui.map fun p => searchLeft s.out p.2)

/-- `calculate_new_year`, `etc/lunisolar` lines 1057-1079. -/
def calculateNewYear (newMoons solstices zhongqi : List Int) : Py (List Int) := do
  let (months, eleventh) ← chineseMonthStart newMoons solstices zhongqi
  ((eleventh.map (· + 2)).filter (· < months.length)).mapM fun (i : Nat) => pyIndex months i

/-- `nth_day_of_nth_chinese_month`, `etc/lunisolar` lines 1283-1323, from the new moons, solstices and zhongqi
on; dates are day numbers. -/
def nthDayOfNthMonth (newMoons solstices zhongqi : List Int) (month day : Int) : Py (List Int) := do
  let (months, _) ← chineseMonthStart newMoons solstices zhongqi
  let newYears ← calculateNewYear newMoons solstices zhongqi
  let starts ← (newYears.map (searchLeft months)).mapM fun (i : Nat) => pyIndex months (i + (month - 1))
  return starts.map fun u => chineseDate u + (day - 1)

end TC.Lunisolar
