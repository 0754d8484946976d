import Verif.Model.Civil

/-!
# Model of `trading_calendars/tcal.py`

Strings are lists of characters.
-/

namespace TC.Tcal

/-- A Python string (`tcal.py` lines 27-97). -/
abbrev Str := List Char

/-- Characters for which `str.isspace` holds; what `rstrip` removes (`tcal.py` lines 51, 97 and 162). -/
def isSpace (c : Char) : Bool :=
  let n := c.toNat
  (9 ≤ n && n ≤ 13) || (28 ≤ n && n ≤ 32) || n == 0x85 || n == 0xa0 || n == 0x1680 ||
  (0x2000 ≤ n && n ≤ 0x200a) || n == 0x2028 || n == 0x2029 || n == 0x202f || n == 0x205f || n == 0x3000

/-- Characters at which `str.splitlines` ends a line (`tcal.py` line 80). -/
def isBreak (c : Char) : Bool :=
  let n := c.toNat
  (10 ≤ n && n ≤ 13) || (28 ≤ n && n ≤ 30) || n == 0x85 || n == 0x2028 || n == 0x2029

/-- `s.rstrip()` (`tcal.py` lines 51, 97 and 162). -/
def rstrip (s : Str) : Str := (s.reverse.dropWhile isSpace).reverse

/-- The loop of `s.splitlines()`: `cur` is the line read so far, reversed.  A carriage return followed by
a newline is one line end; at the end of the string, an empty rest is no line (`tcal.py` line 80). -/
def splitLoop : Str → Str → List Str
  | cur, [] => if cur = [] then [] else [cur.reverse]
  | cur, '\r' :: '\n' :: cs => cur.reverse :: splitLoop [] cs
  | cur, c :: cs => if isBreak c then cur.reverse :: splitLoop [] cs else splitLoop (c :: cur) cs

/-- `s.splitlines()` (`tcal.py` line 80). -/
def splitlines (s : Str) : List Str := splitLoop [] s

/-- `' ' * n`; the empty string for negative `n` (`tcal.py` lines 54, 85 and 93). -/
def blanks (n : Int) : Str := List.replicate n.toNat ' '

/-- `sep.join(parts)` (`tcal.py` lines 95, 97 and 163). -/
def join (sep : Str) : List Str → Str
  | [] => []
  | [p] => p
  | p :: ps => p ++ sep ++ join sep ps

/-- `max(xs)` of a list of lengths; the empty list raises `ValueError` (`tcal.py` line 81). -/
def maxLen : List Nat → Py Nat
  | [] => .error (.valueError "max() arg is an empty sequence")
  | n :: ns => .ok (ns.foldl max n)

/-- `zip(*lists)`: the `i`-th elements of all lists, as long as all have one (`tcal.py` line 88). -/
def zipAll (lists : List (List Str)) : List (List Str) :=
  (List.range ((lists.map List.length).min?.getD 0)).map fun i => lists.map fun l => l.getD i []

/-- `_concat_lines`, `tcal.py` lines 79-97. -/
def concatLines (strings : List Str) (width : Int) : Py Str := do
  let asLines := strings.map splitlines
  let maxLines ← maxLen (asLines.map List.length)
  -- lines 82-85
  let asLines := asLines.map fun lines => lines ++ List.replicate (maxLines - lines.length) (blanks width)
  -- lines 87-95
  let rows := (zipAll asLines).map fun parts =>
    join [' ', ' ', ' '] (parts.map fun part => part ++ blanks (width - part.length))
  return join ['\n'] (rows.map rstrip)

/-- `months`, `tcal.py` lines 6-19. -/
def months : List Str :=
  ["January", "February", "March", "April", "May", "June", "July", "August", "September", "October",
    "November", "December"].map String.toList

/-- `str(n)` of an integer (`tcal.py` lines 39-49). -/
def decimal (n : Int) : Str :=
  if n < 0 then '-' :: Nat.toDigits 10 n.natAbs else Nat.toDigits 10 n.toNat

/-- `'{s:^n}'.format(s=s)`: centred, the odd blank to the right (`tcal.py` lines 51 and 162). -/
def center (s : Str) (n : Nat) : Str :=
  let pad := n - s.length
  List.replicate (pad / 2) ' ' ++ s ++ List.replicate (pad - pad / 2) ' '

/-- `'{s:>n}'.format(s=s)`: right-aligned (`tcal.py` line 70). -/
def rjust (s : Str) (n : Nat) : Str := List.replicate (n - s.length) ' ' ++ s

/-- The days of the month, `tcal.py` lines 39-45: `pd.date_range(start, end, closed='left')`.  Months outside 1 to
12 raise: mostly because pandas refuses the date string; for some negative months an empty range leads to
an `IndexError` two lines on, so only that there is an exception is meant here.  (Years outside 1678 to
2261 are refused by pandas or, if written with one or two digits, read as another date; the model knows no
such limit.) -/
def monthDays (year month : Int) : Py (List Int) :=
  if month < 1 ∨ 12 < month then .error (.valueError "could not parse")
  else
    let start := dayOf year month 1
    let stop := if month = 12 then dayOf (year + 1) 1 1 else dayOf year (month + 1) 1
    .ok ((List.range (stop - start).toNat).map fun (i : Nat) => start + i)

/-- What the loop of `tcal.py` lines 59-73 prints for day `d`. -/
def dayText (isSession : Int → Bool) (d : Int) : Str :=
  (if weekday d = 6 then ['\n'] else []) ++
  [if isSession d then ' ' else '['] ++ rjust (decimal (dayOfMonth d)) 2 ++
  [if isSession d then ' ' else ']']

/-- `_render_month`, `tcal.py` lines 27-76.  `isSession d` is `calendar.is_session` of the midnight of day `d`
(`d in self.schedule.index`; pandas reads the naive timestamp in the zone of the index, UTC). -/
def renderMonth (isSession : Int → Bool) (year month : Int) (printYear : Bool) : Py Str := do
  let days ← monthDays year month
  let title := (months.getD (month - 1).toNat []) ++ (if printYear then ' ' :: decimal year else [])
  return rstrip (center title 28) ++ ['\n'] ++ " Su  Mo  Tu  We  Th  Fr  Sa".toList ++ ['\n'] ++
    blanks (4 * ((weekday (days.headD 0) + 1) % 7)) ++ days.flatMap (dayText isSession) ++ ['\n']

/-- The month strings of `main`, `tcal.py` lines 150-161: four rows of three months. -/
def yearStrings (isSession : Int → Bool) (year : Int) : Py (List (List Str)) :=
  [0, 1, 2, 3].mapM fun row => [0, 1, 2].mapM fun column =>
    renderMonth isSession year (row * 3 + column + 1) false

/-- What `main` prints for a year, `tcal.py` lines 149-163: the heading (`rstrip` also removes the newline of the
format string, `print` adds one), then the rows of months separated by an empty line. -/
def renderYear (isSession : Int → Bool) (year : Int) : Py Str := do
  let monthStrings ← yearStrings isSession year
  let rows ← monthStrings.mapM fun cs => concatLines cs 28
  return rstrip (center (decimal year) 88 ++ ['\n']) ++ ['\n'] ++ join ['\n', '\n'] rows ++ ['\n']

end TC.Tcal
