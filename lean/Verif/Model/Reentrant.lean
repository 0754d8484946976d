import Verif.Model.Dispatcher

/-!
# Model of `get_calendar` with factories that call the dispatcher

`Model/Dispatcher` takes what a factory does for a single step.  A factory is user code, and
`calendar_utils.py` line 199 calls it in the middle of `get_calendar`, so it can call the dispatcher
in turn: a calendar made from two others gets both.
-/

namespace TC.Reentrant
open Registry

/-- What a call of a factory does: it makes public calls and goes on as it likes with what they return
or raise, until it returns a calendar or raises (`calendar_utils.py` line 199). -/
inductive Script where
  | returns (c : CalObj)
  | raises (e : PyErr)
  | calls (op : Op) (next : Py Out → Script)

/-- What calling factory `f` after the invocations `log` does (`calendar_utils.py` line 199). -/
abbrev Scripts := Factory → (log : List Factory) → Script

/-- The dispatcher and a ghost list of what `get_calendar` has returned so far, for which name, those
called by factories included.  Nothing reads the list (`calendar_utils.py` lines 165-200). -/
structure World where
  reg : Registry
  answers : List (String × CalObj)

/-- One public call when `get` is what `get_calendar` does.  The other methods call no factory (`calendar_utils.py`
lines 170-377). -/
def stepWith (get : World → String → World × Py CalObj) (w : World) : Op → World × Py Out
  | .get n => let r := get w n; (r.1, r.2.map .cal)
  | op => let r := w.reg.step (fun _ _ => .error .typeError) op; ({ w with reg := r.1 }, r.2)

/-- A factory at work (`calendar_utils.py` line 199). -/
def runScript (get : World → String → World × Py CalObj) : Script → World → World × Py CalObj
  | .returns c, w => (w, .ok c)
  | .raises e, w => (w, .error e)
  | .calls op next, w => let r := stepWith get w op; runScript get (next r.2) r.1

/-- `get_calendar`, `calendar_utils.py` lines 170-200, where `inner` is what it does when a factory
calls it. -/
def getWith (env : Scripts) (inner : World → String → World × Py CalObj) (w : World) (name : String) :
    World × Py CalObj :=
  match w.reg.resolveAlias name with
  | .error e => (w, .error e)
  | .ok canonical =>
    match w.reg.calendars.get? canonical with
    | some c => ({ w with answers := w.answers ++ [(name, c)] }, .ok c)
    | none =>
      match w.reg.factories.get? canonical with
      | none => (w, .error (.invalidCalendarName name))
      | some f =>
        let called := { w with reg := { w.reg with calls := w.reg.calls ++ [f] } }
        match runScript inner (env f w.reg.calls) called with
        | (w', .error e) => (w', .error e)
        | (w', .ok c) =>
          ({ reg := { w'.reg with calendars := w'.reg.calendars.set canonical c }
             answers := w'.answers ++ [(name, c)] }, .ok c)

/-- `get_calendar` with room for `depth` calls inside one another; beyond that the interpreter raises
`RecursionError`.  Simplified: the limit counts calls of `get_calendar`, not frames (`calendar_utils.py` lines
170-200). -/
def get (env : Scripts) : (depth : Nat) → World → String → World × Py CalObj
  | 0, w, _ => (w, .error .recursionError)
  | depth + 1, w, name => getWith env (get env depth) w name

/-- One public call (`calendar_utils.py` lines 170-377). -/
def step (env : Scripts) (depth : Nat) (w : World) (op : Op) : World × Py Out := stepWith (get env depth) w op

/-- State after a history of calls (`calendar_utils.py` lines 170-377). -/
def run (env : Scripts) (depth : Nat) (w : World) (ops : List Op) : World :=
  ops.foldl (fun w op => (step env depth w op).1) w

end TC.Reentrant
