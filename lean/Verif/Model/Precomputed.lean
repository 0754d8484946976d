import Verif.Model.Lunisolar
import Verif.Model.TestCsv

/-!
# The files with precomputed longitudes of `/repo/etc/lunisolar`

The commands `lunar-ecliptic-longitude` and `solar-ecliptic-longitude` write them, block after block; all other
commands read them.  A minute is its number since the epoch (`datetime64[m]`).  What NOVAS computes is a function
of the minute; longitudes are of any type.
-/

namespace TC.Lunisolar
open Tcal TestCsv

/-! ### Minutes as text -/

/-- `str` of a `datetime64[m]`, `etc/lunisolar` lines 815 and 996.  Simplified: for the years 0 to 9999. -/
def minuteText (m : Int) : Str :=
  dateText (m / 1440) ++ 'T' :: (zeroPad 2 (m % 1440 / 60) ++ ':' :: zeroPad 2 (m % 60))

/-- The value of a digit; in `np.datetime64(text)`, `etc/lunisolar` line 66. -/
def digit (c : Char) : Option Int := if 48 ≤ c.toNat ∧ c.toNat ≤ 57 then some (c.toNat - 48 : Int) else none

/-- A number of digits; in `np.datetime64(text)`, `etc/lunisolar` line 66. -/
def readDigits : Int → Str → Option Int
  | n, [] => some n
  | n, c :: s => (digit c).bind fun k => readDigits (10 * n + k) s

/-- A date as `2019-10-16`, as a day number; in `np.datetime64(text)`, `etc/lunisolar` line 66. -/
def readDate : Str → Option Int
  | [y1, y2, y3, y4, '-', m1, m2, '-', d1, d2] =>
    (readDigits 0 [y1, y2, y3, y4]).bind fun y =>
    (readDigits 0 [m1, m2]).bind fun m =>
    (readDigits 0 [d1, d2]).bind fun d =>
      if 1 ≤ m ∧ m ≤ 12 ∧ 1 ≤ d ∧ d ≤ dayOf (y + m / 12) (m % 12 + 1) 1 - dayOf y m 1 then some (dayOf y m d)
      else none
  | _ => none

/-- A time as `14:31`, in minutes; in `np.datetime64(text)`, `etc/lunisolar` line 66. -/
def readClock : Str → Option Int
  | [h1, h2, ':', m1, m2] =>
    (readDigits 0 [h1, h2]).bind fun h =>
    (readDigits 0 [m1, m2]).bind fun m =>
      if h < 24 ∧ m < 60 then some (h * 60 + m) else none
  | _ => none

/-- `np.datetime64(text)` as a minute, `etc/lunisolar` lines 66, 73 and 74.  Simplified: only the two forms that
the script writes and has as defaults, date and time or date alone; NumPy knows more, as `NaT` and `today`. -/
def readTime (s : Str) : Py Int :=
  let t : Option Int :=
    if s.length = 10 then (readDate s).map (· * 1440)
    else
      (readDate (s.take 10)).bind fun d =>
        match s.drop 10 with
        | c :: r => if c = 'T' ∨ c = ' ' then (readClock r).map (d * 1440 + ·) else none
        | [] => none
  match t with
  | some m => .ok m
  | none => .error (.valueError "Error parsing datetime string")

/-! ### Writing -/

/-- `np.arange(start, stop, dtype='M8[m]')`, `etc/lunisolar` lines 72-76, 877 and 1029. -/
def minuteRange (start stop : Int) : List Int := (List.range (stop - start).toNat).map fun (i : Nat) => start + i

/-- `60 * 24 * 365`, `etc/lunisolar` lines 878 and 1030. -/
def blockSize : Nat := 525600

/-- `toolz.partition_all(n, seq)`, `etc/lunisolar` lines 878 and 1030. -/
def partitionAll {β : Type} (n : Nat) (seq : List β) : List (List β) :=
  (List.range ((seq.length + n - 1) / n)).map fun i => (seq.drop (i * n)).take n

/-- A directory: names and contents of its files, in the order in which `iterdir` has them (`etc/lunisolar` line
64).  A content is a list of floats: an incomplete one at the end is not read by `np.fromfile`. -/
abbrev Dir (α : Type) := List (Str × List α)

/-- `tofile(path)`: a new file, or one that is there is overwritten, `etc/lunisolar` lines 816 and 997. -/
def Dir.put {α : Type} (d : Dir α) (name : Str) (content : List α) : Dir α :=
  d.filter (fun e => e.1 ≠ name) ++ [(name, content)]

/-- `f'{minutes[0]}_{minutes[-1]}'`, `etc/lunisolar` lines 815 and 996.  (A block is not empty.) -/
def blockName (minutes : List Int) : Str :=
  minuteText (minutes.head?.getD 0) ++ '_' :: minuteText (minutes.getLast?.getD 0)

/-- `lunar_ecliptic_longitude_block` and `solar_ecliptic_longitude_block`, `etc/lunisolar` lines 803-816 and
986-997.  `el` is the longitude computed for a minute, `compute_ecliptic_longitude`, lines 773-800. -/
def saveBlock {α : Type} (el : Int → α) (d : Dir α) (minutes : List Int) : Dir α :=
  d.put (blockName minutes) (minutes.map el)

/-- The blocks of a run, `etc/lunisolar` lines 877-878 and 1029-1030. -/
def blocks (start stop : Int) : List (List Int) := partitionAll blockSize (minuteRange start stop)

/-- `lunar_ecliptic_longitude` and `solar_solar_ecliptic_longitude`, `etc/lunisolar` lines 870-882 and 1022-1034,
from the parsed options on.  Simplified: without what `--verbose` prints. -/
def simulate {α : Type} (el : Int → α) (start stop : Int) (d : Dir α) : Dir α :=
  (blocks start stop).foldl (saveBlock el) d

/-- What a block leaves behind whose file is being written when the run ends, `etc/lunisolar` lines 816
and 997: the file with the first `p` longitudes, or, if it was not opened yet, nothing. -/
def savePart {α : Type} (el : Int → α) (p : Option Nat) (block : Option (List Int)) (d : Dir α) : Dir α :=
  match p, block with
  | some p, some ms => d.put (blockName ms) ((ms.map el).take p)
  | _, _ => d

/-- The same, interrupted: `k` blocks are saved; of the next, if its file is open already, some values, or none
(`etc/lunisolar` lines 878-882 and 816). -/
def interrupted {α : Type} (el : Int → α) (start stop : Int) (k : Nat) (p : Option Nat) (d : Dir α) : Dir α :=
  savePart el p (blocks start stop)[k]? (((blocks start stop).take k).foldl (saveBlock el) d)

/-! ### Reading -/

/-- The groups of `re.match(r'(.*)_(.*)', name)`, `etc/lunisolar` lines 63-65: in the first line, what is in front
of the last underscore and what is behind it. -/
def nameParts (name : Str) : Option (Str × Str) :=
  let line := name.takeWhile (· ≠ '\n')
  if '_' ∈ line then
    some ((line.reverse.dropWhile (· ≠ '_')).tail.reverse, (line.reverse.takeWhile (· ≠ '_')).reverse)
  else none

/-- One step of `sorted` by start, `etc/lunisolar` line 66. -/
def insertFile {β : Type} (x : Int × β) : List (Int × β) → List (Int × β)
  | [] => [x]
  | y :: ys => if x.1 ≤ y.1 then x :: y :: ys else y :: insertFile x ys

/-- `sorted(files, key=...)`, `etc/lunisolar` line 66; stable. -/
def sortFiles {β : Type} (xs : List (Int × β)) : List (Int × β) := xs.foldr insertFile []

/-- `load_precomputed_data`, `etc/lunisolar` lines 45-77: values and minutes. -/
def load {α : Type} (d : Dir α) : Py (List α × List Int) := do
  let files := d.filterMap fun e => (nameParts e.1).map fun g => (g, e.2)
  let keyed ← files.mapM fun f => do return (← readTime f.1.1, f)
  let parts ← (sortFiles keyed).mapM fun kf => do
    return (kf.2.2, minuteRange kf.1 ((← readTime kf.2.1.2) + 1))
  if parts = [] then .error (.valueError "need at least one array to concatenate")
  else return ((parts.map (·.1)).flatten, (parts.map (·.2)).flatten)

/-- An operation on two arrays of one dimension, with NumPy's broadcasting; `etc/lunisolar` lines 904 and 934. -/
def elementwise {α β : Type} (f : α → α → β) (xs ys : List α) : Py (List β) :=
  if xs.length = ys.length then .ok (List.zipWith f xs ys)
  else match xs, ys with
    | [x], _ => .ok (ys.map (f x))
    | _, [y] => .ok (xs.map (f · y))
    | _, _ => .error (.valueError "operands could not be broadcast together")

/-- `load_new_moons`, `etc/lunisolar` lines 911-948.  `dist` is the distance of two longitudes, `close` the test
`< 0.1`.  Minutes of different numbers are different (old versions of NumPy say so, newer ones raise, both end in
`ValueError`). -/
def loadNewMoons {α β : Type} (dist : α → α → β) (lt : β → β → Bool) (close : β → Bool) (solar lunar : Dir α) :
    Py (List Int) := do
  let (solarElon, solarMinutes) ← load solar
  let (lunarElon, lunarMinutes) ← load lunar
  let same ← elementwise (fun a b : Int => decide (a = b)) solarMinutes lunarMinutes
  if !same.all id then .error (.valueError "mismatched minutes for solar and lunar ecliptic longitude")
  else
    let diff ← elementwise dist solarElon lunarElon
    calculateNewMoon lt close diff solarMinutes

end TC.Lunisolar
