import Verif.Model.Dispatcher

/-!
# `TradingCalendarDispatcher` step by step

`Model/Dispatcher.lean` has each public call of the dispatcher as one step.  Here the calls are divided into
the accesses to the three dictionaries, between which other threads may run: in CPython a single operation on a
dictionary with strings as keys is atomic, and a thread may be interrupted between any two.  A call that a
calendar factory makes itself is a call of another thread in this sense, which runs while the first is at
`make`.
-/

namespace TC.Threads
open TC.Registry (Op Out)

/-- What a registration stores after its checks, `calendar_utils.py` lines 257, 288 and 318. -/
inductive Payload where
  | cal (c : CalObj)
  | type (f : Factory)
  | alias (real : String)
  deriving DecidableEq, Repr

/-- Who calls `resolve_alias`: the user, `get_calendar` (`calendar_utils.py` line 184) or `register_calendar_alias`
(line 323). -/
inductive Why where
  | user
  | get
  | check
  deriving DecidableEq, Repr

/-- Where a call is: the next access to a dictionary, with the local variables (`calendar_utils.py` lines 170-377). -/
inductive Pc where
  /-- `name in self._aliases`, line 344; `asked` is the argument of the calling function -/
  | resolveIn (why : Why) (asked : String) (seen : List String) (name : String)
  /-- `self._aliases[name]`, line 346 -/
  | resolveAt (why : Why) (asked : String) (seen : List String) (name : String)
  /-- `self._calendars[canonical_name]`, line 187 -/
  | cached (asked canonical : String)
  /-- `self._calendar_factories[canonical_name]`, line 193 -/
  | factory (asked canonical : String)
  /-- `factory()`, line 199 -/
  | make (canonical : String) (f : Factory)
  /-- `self._calendars[canonical_name] =`, line 199 -/
  | store (canonical : String) (c : CalObj)
  /-- `name in self._calendars`, line 226; a registration goes on with its payload -/
  | has1 (name : String) (next : Option Payload)
  /-- `name in self._calendar_factories`, line 227 -/
  | has2 (name : String) (next : Option Payload)
  /-- `name in self._aliases`, line 228 -/
  | has3 (name : String) (next : Option Payload)
  /-- the assignment of line 257, 288 or 318 -/
  | set (name : String) (p : Payload)
  /-- `self._calendars.pop(name, None)`, line 367 -/
  | pop1 (name : String) (next : Option Payload)
  /-- `self._calendar_factories.pop(name, None)`, line 368 -/
  | pop2 (name : String) (next : Option Payload)
  /-- `self._aliases.pop(name, None)`, line 369 -/
  | pop3 (name : String) (next : Option Payload)
  /-- `del self._aliases[alias]`, line 325 -/
  | undo (alias : String) (e : PyErr)
  /-- `get_calendar_names`, lines 211-219: one step, because `set` of the chained views runs no Python code -/
  | names
  /-- `self._calendars.clear()`, line 375 -/
  | clear1
  /-- `self._calendar_factories.clear()`, line 376 -/
  | clear2
  /-- `self._aliases.clear()`, line 377 -/
  | clear3
  /-- the call has returned or raised -/
  | done (r : Py Out)
  deriving Repr

/-- A call that begins (`calendar_utils.py` lines 170-377). -/
def begin : Op → Pc
  | .get n => .resolveIn .get n [] n
  | .has n => .has1 n none
  | .names => .names
  | .resolve n => .resolveIn .user n [] n
  | .registerCal n c force => if force then .pop1 n (some (.cal c)) else .has1 n (some (.cal c))
  | .registerType n f force => if force then .pop1 n (some (.type f)) else .has1 n (some (.type f))
  | .registerAlias a r force => if force then .pop1 a (some (.alias r)) else .has1 a (some (.alias r))
  | .deregister n => .pop1 n none
  | .clear => .clear1

/-- After `resolve_alias` has returned a name: `calendar_utils.py` lines 184-187 and 322-326. -/
def resolved : Why → (asked canonical : String) → Pc
  | .user, _, canonical => .done (.ok (.name canonical))
  | .get, asked, canonical => .cached asked canonical
  | .check, _, _ => .done (.ok .unit)

/-- After `resolve_alias` has raised `CyclicCalendarAlias`: `register_calendar_alias` backs the alias out,
`calendar_utils.py` lines 323-326. -/
def cyclic : Why → (asked : String) → PyErr → Pc
  | .check, asked, e => .undo asked e
  | _, _, e => .done (.error e)

/-- After `has_calendar` has found the name, `calendar_utils.py` lines 225-229, 254-255, 285-286 and 315-316. -/
def found (name : String) : Option Payload → Pc
  | none => .done (.ok (.bool true))
  | some _ => .done (.error (.calendarNameCollision name))

/-- The next step of a call (`calendar_utils.py` lines 170-377). -/
def advance (env : FactoryEnv) (s : Registry) : Pc → Registry × Pc
  | .resolveIn why asked seen name =>
    (s, if s.aliases.has name then .resolveAt why asked (seen ++ [name]) name else resolved why asked name)
  | .resolveAt why asked seen name =>
    match s.aliases.get? name with
    | none => (s, .done (.error .keyError))
    | some next =>
      (s, if next ∈ seen then cyclic why asked (.cyclicCalendarAlias (seen ++ [next]))
          else .resolveIn why asked seen next)
  | .cached asked canonical =>
    match s.calendars.get? canonical with
    | some c => (s, .done (.ok (.cal c)))
    | none => (s, .factory asked canonical)
  | .factory asked canonical =>
    match s.factories.get? canonical with
    | some f => (s, .make canonical f)
    | none => (s, .done (.error (.invalidCalendarName asked)))
  | .make canonical f =>
    ({ s with calls := s.calls ++ [f] },
      match env f s.calls with
      | .error e => .done (.error e)
      | .ok c => .store canonical c)
  | .store canonical c => ({ s with calendars := s.calendars.set canonical c }, .done (.ok (.cal c)))
  | .has1 name next => (s, if s.calendars.has name then found name next else .has2 name next)
  | .has2 name next => (s, if s.factories.has name then found name next else .has3 name next)
  | .has3 name next =>
    (s, if s.aliases.has name then found name next
        else match next with
          | none => .done (.ok (.bool false))
          | some p => .set name p)
  | .set name (.cal c) => ({ s with calendars := s.calendars.set name c }, .done (.ok .unit))
  | .set name (.type f) => ({ s with factories := s.factories.set name f }, .done (.ok .unit))
  | .set name (.alias real) => ({ s with aliases := s.aliases.set name real }, .resolveIn .check name [] name)
  | .pop1 name next => ({ s with calendars := s.calendars.del name }, .pop2 name next)
  | .pop2 name next => ({ s with factories := s.factories.del name }, .pop3 name next)
  | .pop3 name next =>
    ({ s with aliases := s.aliases.del name },
      match next with
      | none => .done (.ok .unit)
      | some p => .has1 name (some p))
  | .undo alias e =>
    ({ s with aliases := s.aliases.del alias },
      .done (.error (if s.aliases.has alias then e else .keyError)))
  | .names => (s, .done (.ok (.names s.getCalendarNames)))
  | .clear1 => ({ s with calendars := [] }, .clear2)
  | .clear2 => ({ s with factories := [] }, .clear3)
  | .clear3 => ({ s with aliases := [] }, .done (.ok .unit))
  | .done r => (s, .done r)

/-- A call and where it is (`calendar_utils.py` lines 170-377). -/
structure Call where
  op : Op
  pc : Pc

/-- The dispatcher and all calls made on it, finished or not (`calendar_utils.py` lines 165-168). -/
structure Sys where
  reg : Registry
  calls : List Call

/-- The states that threads making calls of the kind `allowed` can reach: a call begins, or one of the calls
does its next step (`calendar_utils.py` lines 170-377). -/
inductive Reach (env : FactoryEnv) (allowed : Op → Prop) (a : Sys) : Sys → Prop
  | refl : Reach env allowed a a
  | call {b : Sys} (op : Op) : Reach env allowed a b → allowed op →
      Reach env allowed a ⟨b.reg, b.calls ++ [⟨op, begin op⟩]⟩
  | run {b : Sys} (i : Nat) (c : Call) : Reach env allowed a b → b.calls[i]? = some c →
      Reach env allowed a
        ⟨(advance env b.reg c.pc).1, b.calls.set i ⟨c.op, (advance env b.reg c.pc).2⟩⟩

end TC.Threads
