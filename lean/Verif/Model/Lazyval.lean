import Verif.Py

/-!
# Model of `trading_calendars/utils/memoize.py::lazyval`

A `lazyval` is a descriptor on a class; reading it on an instance runs a getter once and remembers the
result.  A key stands for a descriptor together with an instance: the caches of different descriptors
are different dictionaries, so that one function from keys to values models all of them.  The
`WeakKeyDictionary` compares instances by identity (calendars define no `__eq__`).
-/

namespace TC.Lazyval

/-- What a getter `self._get(instance)` does: read other lazy values (of this or another instance), one
after another, seeing their value or exception, then return or raise (`utils/memoize.py` line 49). -/
inductive Getter (κ ν : Type) where
  | done (r : Py ν)
  | read (k : κ) (next : Py ν → Getter κ ν)

/-- The caches, `utils/memoize.py` line 41, and the log of completed getter runs (not read by the code;
getters may depend on it, so that different runs may do different things). -/
structure State (κ ν : Type) where
  cache : κ → Option ν
  runs : List (κ × Py ν)

/-- No value cached, no getter run yet (`utils/memoize.py` lines 39-41). -/
def State.empty {κ ν : Type} : State κ ν := { cache := fun _ => none, runs := [] }

variable {κ ν : Type}

/-- Run a getter, `rd` being how lazy values are read (`utils/memoize.py` line 49). -/
def runGetter (rd : κ → State κ ν → State κ ν × Py ν) : Getter κ ν → State κ ν → State κ ν × Py ν
  | .done r, s => (s, r)
  | .read k next, s => runGetter rd (next (rd k s).2) (rd k s).1

variable [DecidableEq κ]

/-- `__get__` on an instance, `utils/memoize.py` lines 43-50.  `n` is the number of nested calls that the interpreter's
recursion limit still allows. -/
def read (get : κ → List (κ × Py ν) → Getter κ ν) : Nat → κ → State κ ν → State κ ν × Py ν
  | 0, k, s =>
    match s.cache k with
    | some v => (s, .ok v)
    | none => (s, .error .recursionError)
  | n + 1, k, s =>
    match s.cache k with
    | some v => (s, .ok v)
    | none =>
      match runGetter (read get n) (get k s.runs) s with
      | (s', .ok v) =>
        ({ cache := fun j => if j = k then some v else s'.cache j, runs := s'.runs ++ [(k, .ok v)] },
          .ok v)
      | (s', .error e) => ({ s' with runs := s'.runs ++ [(k, .error e)] }, .error e)

/-- What a program can do with a lazy value of an instance (`utils/memoize.py` lines 43-56). -/
inductive Op (κ ν : Type) where
  /-- `instance.attr` -/
  | read (k : κ)
  /-- `instance.attr = v` -/
  | assign (k : κ) (v : ν)
  /-- `del Class.attr[instance]` -/
  | evict (k : κ)
  /-- the instance is garbage collected; its weak references leave the dictionary -/
  | drop (k : κ)

/-- One operation and its outcome: `__get__`, `utils/memoize.py` lines 43-50; `__set__`, lines 52-53; `__delitem__`,
lines
55-56. -/
def step (get : κ → List (κ × Py ν) → Getter κ ν) (limit : Nat) (s : State κ ν) :
    Op κ ν → State κ ν × Py (Option ν)
  | .read k => let (s', r) := read get limit k s; (s', r.map some)
  | .assign _ _ => (s, .error .attributeError)
  | .evict k =>
    match s.cache k with
    | some _ => ({ s with cache := fun j => if j = k then none else s.cache j }, .ok none)
    | none => (s, .error .keyError)
  | .drop k => ({ s with cache := fun j => if j = k then none else s.cache j }, .ok none)

/-- A history of operations: the final state and all outcomes (`utils/memoize.py` lines 43-56). -/
def run (get : κ → List (κ × Py ν) → Getter κ ν) (limit : Nat) :
    State κ ν → List (Op κ ν) → State κ ν × List (Py (Option ν))
  | s, [] => (s, [])
  | s, o :: os =>
    let (s', r) := step get limit s o
    let (s'', rs) := run get limit s' os
    (s'', r :: rs)

end TC.Lazyval
