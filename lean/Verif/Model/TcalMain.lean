import Verif.Model.Tcal
import Verif.Model.Dispatcher

/-!
# Model of `trading_calendars/tcal.py`: arguments and `main`
-/

namespace TC.Tcal

/-- What a run of `main` ends with (`tcal.py` lines 139-163). -/
inductive Outcome where
  /-- text on the standard output -/
  | prints (out : Str)
  /-- `error(msg)`, `tcal.py` lines 22-24: a message on the standard error output, then `exit(-1)` -/
  | exits (msg : Str)
  /-- an exception that nobody catches -/
  | raises (e : PyErr)
  deriving DecidableEq

/-- What `main` depends on besides its arguments and the registry of calendars (`tcal.py` lines 113-126). -/
structure World where
  /-- what calling calendar classes does -/
  env : FactoryEnv
  /-- the calendar objects -/
  content : CalObj → Built
  /-- year and month of `datetime.datetime.now()` -/
  year : Int
  month : Int
  /-- `str(e)` -/
  str : PyErr → Str
  /-- `'%r' % v` -/
  repr : Str → Str
  /-- the value of decimal digits outside ASCII, e.g. Arabic ones -/
  decimal : Char → Option Nat

/-- White space that `int` skips: that of `str.isspace`, without the separators 28 to 31 (CPython's
`_PyUnicode_TransformDecimalAndSpaceToASCII` leaves ASCII characters alone, and the parser skips only
those of `Py_ISSPACE`) (`tcal.py` line 102). -/
def intSpace (c : Char) : Bool := isSpace c && !(28 ≤ c.toNat && c.toNat ≤ 31)

/-- The value of a digit; white space is none (`tcal.py` line 102). -/
def digitOf (w : World) (c : Char) : Option Nat :=
  if '0' ≤ c ∧ c ≤ '9' then some (c.toNat - 48)
  else if c.toNat < 128 ∨ isSpace c then none
  else w.decimal c

/-- The digits loop of CPython's `PyLong_FromString`, base 10: single underscores are allowed between
digits.  Returns the value and the rest of the string.  (Python before 3.6 knows no underscores.) (`tcal.py` line 102)
-/
def scanDigits (w : World) : Nat → Str → Nat × Str
  | n, [] => (n, [])
  | n, [c] => match digitOf w c with | some k => (10 * n + k, []) | none => (n, [c])
  | n, c :: c' :: cs =>
    match digitOf w c with
    | some k => scanDigits w (10 * n + k) (c' :: cs)
    | none =>
      if c = '_' then
        match digitOf w c' with
        | some k => scanDigits w (10 * n + k) cs
        | none => (n, c :: c' :: cs)
      else (n, c :: c' :: cs)

/-- `int(v)` of a string; `none` for `ValueError` (`tcal.py` line 102). -/
def pyInt (w : World) (v : Str) : Option Int :=
  let s := v.dropWhile intSpace
  let neg := s.head? == some '-'
  let s := if s.head? = some '-' ∨ s.head? = some '+' then s.tail else s
  match s with
  | [] => none
  | c :: cs =>
    match digitOf w c with
    | none => none
    | some k =>
      let r := scanDigits w k cs
      if r.2.all intSpace then some (if neg then -(r.1 : Int) else r.1) else none

/-- `_int_arg`, `tcal.py` lines 100-104; `.error` is the message of `error`. -/
def intArg (w : World) (v : Str) (name : String) : Except Str Int :=
  match pyInt w v with
  | some n => .ok n
  | none => .error (name.toList ++ " must be an integer, got: ".toList ++ w.repr v)

/-- `usage`, `tcal.py` line 108. -/
def usage (argv0 : Str) : Str :=
  "usage: ".toList ++ argv0 ++ " CALENDAR [[[DAY] MONTH] YEAR]".toList

/-- The arguments behind the name of the calendar, `tcal.py` lines 121-134: year and month. -/
def period (w : World) (argv0 : Str) : List Str → Except Str (Int × Option Int)
  | [] => .ok (w.year, some w.month)
  | [y] => do return (← intArg w y "YEAR", none)
  | [m, y] => do
    let month ← intArg w m "MONTH"
    return (← intArg w y "YEAR", some month)
  | _ => .error (usage argv0)

/-- What `main` prints, `tcal.py` lines 147-163; `print` adds a newline. -/
def render (isSession : Int → Bool) (year : Int) : Option Int → Py Str
  | some m => do return (← renderMonth isSession year m true) ++ ['\n']
  | none => renderYear isSession year

/-- `main(argv)` with `parse_args` (`tcal.py` lines 107-136, 139-163), on the registry of calendars:
the registry afterwards and the outcome.  `except Exception` (line 118) catches every exception of the
model. -/
def main (w : World) (s : Registry) : List Str → Registry × Outcome
  | [] => (s, .raises .indexError)
  | argv0 :: args =>
    if args = [] ∨ "--help".toList ∈ argv0 :: args ∨ "-h".toList ∈ argv0 :: args then
      (s, .exits (usage argv0))
    else
      let r := s.getCalendar w.env (String.ofList (args.headD []))
      match r.2 with
      | .error e => (r.1, .exits (w.str e))
      | .ok c =>
        match period w argv0 args.tail with
        | .error msg => (r.1, .exits msg)
        | .ok p =>
          match render (fun d => (w.content c).cal.isSession (d * DAY)) p.1 p.2 with
          | .error e => (r.1, .raises e)
          | .ok out => (r.1, .prints out)

end TC.Tcal
