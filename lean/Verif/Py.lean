/-!
# Python / numpy primitives

The small part of Python and numpy semantics the code under study relies on.
Exceptions are values: a call returns `Except PyErr α`.
-/

namespace TC

/-- Exceptions that the modelled code can raise.
`/repo/trading_calendars/errors.py` lines 18-84 for the three calendar errors;
the rest are Python / pytz built-ins. -/
inductive PyErr where
  | indexError
  | keyError
  | valueError (why : String)
  | attributeError
  | typeError
  /-- `errors.py` `InvalidCalendarName(calendar_name=...)` -/
  | invalidCalendarName (name : String)
  /-- `errors.py` `CalendarNameCollision(calendar_name=...)` -/
  | calendarNameCollision (name : String)
  /-- `errors.py` `CyclicCalendarAlias(cycle=...)`; the payload is the list of names that
  the code joins with `" -> "`. -/
  | cyclicCalendarAlias (cycle : List String)
  /-- pytz `NonExistentTimeError`, raised by `tz_localize` -/
  | nonExistentTime
  /-- pytz `AmbiguousTimeError`, raised by `tz_localize` -/
  | ambiguousTime
  /-- the interpreter's recursion limit was reached -/
  | recursionError
  /-- an exception raised by user code (a factory, a lazyval getter) -/
  | userError (code : Nat)
  deriving DecidableEq, Repr

/-- Result of a Python call: a value or an exception (every function of the library). -/
abbrev Py (α : Type) := Except PyErr α

instance {ε α} [DecidableEq ε] [DecidableEq α] : DecidableEq (Except ε α)
  | .ok a, .ok b => if h : a = b then .isTrue (h ▸ rfl) else .isFalse (fun h' => h (by cases h'; rfl))
  | .error a, .error b =>
      if h : a = b then .isTrue (h ▸ rfl) else .isFalse (fun h' => h (by cases h'; rfl))
  | .ok _, .error _ => .isFalse (fun h => by cases h)
  | .error _, .ok _ => .isFalse (fun h => by cases h)

/-- Python / numpy `xs[i]` on a sequence: negative indices count from the end, out of range
raises `IndexError` (e.g. `calendar_helpers.py` line 12). -/
def pyIndex {α : Type} (xs : List α) (i : Int) : Py α :=
  let j := if i < 0 then i + xs.length else i
  if j < 0 then .error .indexError
  else match xs[j.toNat]? with
    | some x => .ok x
    | none => .error .indexError

/-- Normalisation of a slice bound: Python adds the length to negative bounds and clamps to
`[0, len]` (for `trading_calendar.py` lines 677-679 and 798-800). -/
def sliceBound (n : Nat) (i : Int) : Nat :=
  if i < 0 then (i + n).toNat else min i.toNat n

/-- Python / numpy / pandas positional slice `xs[a:b]` (step 1) (e.g. `trading_calendar.py` lines 677-679 and
798-800). -/
def pySlice {α : Type} (xs : List α) (a b : Int) : List α :=
  let a' := sliceBound xs.length a
  let b' := sliceBound xs.length b
  (xs.drop a').take (b' - a')

/-- The binary search loop of numpy's `searchsorted` (`npy_binsearch`): `goRight m` tells
whether the search continues to the right of the probed element `m`.  `fuel` bounds the number of
iterations; `searchsorted*` passes the length, which always suffices (`bsearch_spec`) (for `calendar_helpers.py` lines
11 and 23). -/
def bsearch (goRight : Int → Bool) (xs : List Int) : (fuel lo hi : Nat) → Nat
  | 0, lo, _ => lo
  | fuel + 1, lo, hi =>
      if lo < hi then
        let mid := lo + (hi - lo) / 2
        if goRight (xs.getD mid 0) then bsearch goRight xs fuel (mid + 1) hi
        else bsearch goRight xs fuel lo mid
      else lo

/-- `np.searchsorted(xs, v)` (side `'left'`) (e.g. `calendar_helpers.py` line 23). -/
def searchLeft (xs : List Int) (v : Int) : Nat :=
  bsearch (fun m => decide (m < v)) xs xs.length 0 xs.length

/-- `np.searchsorted(xs, v, side='right')` (e.g. `calendar_helpers.py` line 11). -/
def searchRight (xs : List Int) (v : Int) : Nat :=
  bsearch (fun m => decide (m ≤ v)) xs xs.length 0 xs.length

/-- `np.arange(start, stop, step)` for integers and `step > 0`:
`ceil((stop - start) / step)` elements `start + k * step` (`calendar_helpers.py` lines 48-67). -/
def arange (start stop step : Int) : List Int :=
  (List.range ((stop - start + step - 1) / step).toNat).map (fun (k : Nat) => start + k * step)

/-- `pd.NaT` viewed as int64, `calendar_helpers.py` line 6 (`NP_NAT`). -/
def NP_NAT : Int := -9223372036854775808

/-- `calendar_helpers.py` line 4 (`NANOSECONDS_PER_MINUTE = int(6e10)`), also
`trading_calendar.py` line 49. -/
def MINUTE : Int := 60000000000

end TC
