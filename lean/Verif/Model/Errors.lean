import Verif.Model.Dispatcher
import Verif.Model.Tcal

/-!
# Model of `trading_calendars/errors.py`: what the exceptions say

`str.format` and `repr` of Python 3 as far as the module uses them.
-/

namespace TC.Errors
open TC.Tcal (Str)

/-- `"...".format(**kwargs)`, used at `errors.py` line 29: CPython's `MarkupIterator_next`.  The state is the name of
the replacement field that is being read, if any.  Simplified: a field is looked up by all that is between its
braces (no attributes, indices, conversions or format specifications, no nested fields; the module has none); an
empty or numeric field, for which there are no arguments, raises `KeyError` instead of `IndexError`. -/
def formatLoop (kwargs : List (Str × Str)) : Option Str → Str → Py Str
  | none, [] => .ok []
  | some _, [] => .error (.valueError "expected '}' before end of string")
  | none, ['{'] => .error (.valueError "Single '{' encountered in format string")
  | none, '{' :: '{' :: t => (formatLoop kwargs none t).map ('{' :: ·)
  | none, '{' :: t => formatLoop kwargs (some []) t
  | none, '}' :: '}' :: t => (formatLoop kwargs none t).map ('}' :: ·)
  | none, '}' :: _ => .error (.valueError "Single '}' encountered in format string")
  | none, c :: t => (formatLoop kwargs none t).map (c :: ·)
  | some name, '}' :: t =>
    match kwargs.lookup name with
    | none => .error .keyError
    | some v => (formatLoop kwargs none t).map (v ++ ·)
  | some name, c :: t => formatLoop kwargs (some (name ++ [c])) t

/-- `msg.format(**kwargs)`, `errors.py` line 29. -/
def format (msg : Str) (kwargs : List (Str × Str)) : Py Str := formatLoop kwargs none msg

/-- An exception of the module, `errors.py` lines 18-22: the class attribute `msg` (`None` in the base class), the
keyword arguments (strings in every use), and the value of the lazyval `message`, if it has been read. -/
structure Exc where
  msg : Option Str
  kwargs : List (Str × Str)
  message : Option Str := none
  deriving DecidableEq

/-- `__str__`, `errors.py` lines 28-30 (also `__unicode__` and `__repr__`, lines 32-33).  `None.format` raises `AttributeError`. -/
def Exc.str (x : Exc) : Py Str :=
  match x.msg with
  | none => .error .attributeError
  | some m => format m x.kwargs

/-- `x.message`, `errors.py` lines 24-26, a lazyval (`utils/memoize.py` lines 43-50): computed at the first read and
kept, unless it raises. -/
def Exc.readMessage (x : Exc) : Exc × Py Str :=
  match x.message with
  | some m => (x, .ok m)
  | none =>
    match x.str with
    | .ok m => ({ x with message := some m }, .ok m)
    | .error e => (x, .error e)

/-- `InvalidCalendarName.msg`, `errors.py` lines 40-42. -/
def invalidCalendarNameMsg : Str :=
  "The requested TradingCalendar, {calendar_name}, does not exist.".toList

/-- `CalendarNameCollision.msg`, `errors.py` lines 50-52. -/
def calendarNameCollisionMsg : Str :=
  "A calendar with the name {calendar_name} is already registered.".toList

/-- `CyclicCalendarAlias.msg`, `errors.py` line 59. -/
def cyclicCalendarAliasMsg : Str := "Cycle in calendar aliases: [{cycle}]".toList

/-- The digits of `n` in base 16, padded to a width: `Py_hexdigits` in CPython's `unicode_repr` (for `repr(k)`,
`calendar_utils.py` line 353). -/
def hex : Nat → Nat → Str
  | 0, _ => []
  | w + 1, n =>
    hex w (n / 16) ++ [Char.ofNat (if n % 16 < 10 then 48 + n % 16 else 87 + n % 16)]

/-- One character in `repr(s)`: CPython's `unicode_repr`. `printable` is `str.isprintable` outside ASCII (for
`repr(k)`, `calendar_utils.py` line 353). -/
def reprChar (printable : Char → Bool) (quote c : Char) : Str :=
  if c = quote ∨ c = '\\' then ['\\', c]
  else if c = '\t' then ['\\', 't']
  else if c = '\n' then ['\\', 'n']
  else if c = '\r' then ['\\', 'r']
  else if c.toNat < 32 ∨ c.toNat = 127 then '\\' :: 'x' :: hex 2 c.toNat
  else if c.toNat < 127 then [c]
  else if printable c then [c]
  else if c.toNat ≤ 0xff then '\\' :: 'x' :: hex 2 c.toNat
  else if c.toNat ≤ 0xffff then '\\' :: 'u' :: hex 4 c.toNat
  else '\\' :: 'U' :: hex 8 c.toNat

/-- `repr(s)` of a string, used at `calendar_utils.py` line 353: single quotes, unless the string has a single quote
and no double quote. -/
def pyRepr (printable : Char → Bool) (s : Str) : Str :=
  let quote := if '\'' ∈ s ∧ '"' ∉ s then '"' else '\''
  quote :: (s.flatMap (reprChar printable quote) ++ [quote])

/-- `" -> ".join(repr(k) for k in seen)`, `calendar_utils.py` line 353. -/
def cycleText (printable : Char → Bool) : List String → Str
  | [] => []
  | [k] => pyRepr printable k.toList
  | k :: ks => pyRepr printable k.toList ++ " -> ".toList ++ cycleText printable ks

/-- The exception object that is raised: `InvalidCalendarName(calendar_name=name)`, `calendar_utils.py` line 196,
`CalendarNameCollision(calendar_name=...)`, lines 255, 286 and 316, and `CyclicCalendarAlias(cycle=...)`, lines
352-354.  The others are not of this module. -/
def excOf (printable : Char → Bool) : PyErr → Option Exc
  | .invalidCalendarName n =>
    some { msg := some invalidCalendarNameMsg, kwargs := [("calendar_name".toList, n.toList)] }
  | .calendarNameCollision n =>
    some { msg := some calendarNameCollisionMsg, kwargs := [("calendar_name".toList, n.toList)] }
  | .cyclicCalendarAlias seen =>
    some { msg := some cyclicCalendarAliasMsg, kwargs := [("cycle".toList, cycleText printable seen)] }
  | _ => none

end TC.Errors
