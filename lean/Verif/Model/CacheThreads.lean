import Verif.Model.Calendar

/-!
# The caches of a calendar, step by step

`minute_to_session_label` and the `lazyval` attributes, divided into the accesses to the state that threads
share: reading or setting an attribute, and one operation on a dictionary.  Between any two of them another
thread may run.
-/

namespace TC.CacheThreads

/-- Where a call of `minute_to_session_label` (`trading_calendar.py` lines 947-998) is. -/
inductive Pc where
  /-- `self._minute_to_session_label_cache[0] == dt`, line 975, if the direction is "next" -/
  | look
  /-- `self._minute_to_session_label_cache[1]`, line 976: the attribute is read a second time -/
  | take
  /-- lines 978-979 and, for the other directions, 986-998: nothing shared is changed -/
  | compute
  /-- `self._minute_to_session_label_cache = (dt, current_or_next_session)`, lines 982-984 -/
  | store (label : Int)
  | done (r : Py Int)
  deriving Repr

/-- A call (of `minute_to_session_label`, `trading_calendar.py` lines 947-998). -/
structure Call where
  dt : Int
  direction : String
  pc : Pc

/-- A call that begins (`trading_calendar.py` line 947). -/
def Call.begin (dt : Int) (direction : String) : Call :=
  ⟨dt, direction, if direction = "next" then .look else .compute⟩

/-- The next step of a call (`trading_calendar.py` lines 971-998). -/
def advance (c : Cal) (cache : Cal.LabelCache) (k : Call) : Cal.LabelCache × Pc :=
  match k.pc with
  | .look => (cache, if cache.map Prod.fst = some k.dt then .take else .compute)
  | .take =>
    match cache with
    | some (_, l) => (cache, .done (.ok l))
    | none => (cache, .done (.error .typeError))  -- `None` as label; not reachable
  | .compute =>
    if k.direction = "next" then
      match pyIndex c.sessions (searchLeft c.closes k.dt) with
      | .error e => (cache, .done (.error e))
      | .ok l => (cache, .store l)
    else (cache, .done (c.sessionLabelFresh k.dt k.direction))
  | .store l => (some (k.dt, l), .done (.ok l))
  | .done r => (cache, .done r)

/-- The cache and all calls on one calendar (`trading_calendar.py` lines 166-170). -/
structure Sys where
  cache : Cal.LabelCache
  calls : List Call

/-- The states that threads can reach (`trading_calendar.py` lines 947-998). -/
inductive Reach (c : Cal) (a : Sys) : Sys → Prop
  | refl : Reach c a a
  | call {b : Sys} (dt : Int) (direction : String) : Reach c a b →
      Reach c a ⟨b.cache, b.calls ++ [Call.begin dt direction]⟩
  | run {b : Sys} (i : Nat) (k : Call) : Reach c a b → b.calls[i]? = some k →
      Reach c a ⟨(advance c b.cache k).1, b.calls.set i { k with pc := (advance c b.cache k).2 }⟩

/-! ### `lazyval` -/

/-- Where a read of a lazy value (`utils/memoize.py` lines 43-50) is. -/
inductive LazyPc (ν : Type) where
  /-- `self._cache[instance]`, line 47 -/
  | look
  /-- `self._get(instance)`, line 49 -/
  | compute
  /-- `self._cache[instance] =`, line 49 -/
  | store (v : ν)
  | done (r : Py ν)

/-- The next step of a read of `key`; `get key log` is what the getter does after the runs `log`.  Reads that
the getter itself makes are other calls.  Simplified: the operations of `WeakKeyDictionary` are one step
(`utils/memoize.py` lines 43-50). -/
def lazyAdvance {κ ν : Type} [DecidableEq κ] (get : κ → List κ → Py ν) (s : (κ → Option ν) × List κ) (key : κ) :
    LazyPc ν → ((κ → Option ν) × List κ) × LazyPc ν
  | .look => (s, match s.1 key with
    | some v => .done (.ok v)
    | none => .compute)
  | .compute => ((s.1, s.2 ++ [key]), match get key s.2 with
    | .error e => .done (.error e)
    | .ok v => .store v)
  | .store v => ((fun j => if j = key then some v else s.1 j, s.2), .done (.ok v))
  | .done r => (s, .done r)

/-- The caches, the log of getter runs, and the reads (`utils/memoize.py` lines 39-41). -/
structure LazySys (κ ν : Type) where
  state : (κ → Option ν) × List κ
  reads : List (κ × LazyPc ν)

/-- Nothing cached, no getter run, no read (`lazyval.__init__`, `utils/memoize.py` lines 39-41). -/
def LazySys.start {κ ν : Type} : LazySys κ ν := ⟨(fun _ => none, []), []⟩

/-- The states that threads reading lazy values can reach (`utils/memoize.py` lines 43-50). -/
inductive LazyReach {κ ν : Type} [DecidableEq κ] (get : κ → List κ → Py ν) (a : LazySys κ ν) :
    LazySys κ ν → Prop
  | refl : LazyReach get a a
  | call {b} (key : κ) : LazyReach get a b → LazyReach get a ⟨b.state, b.reads ++ [(key, .look)]⟩
  | run {b} (i : Nat) (key : κ) (p : LazyPc ν) : LazyReach get a b → b.reads[i]? = some (key, p) →
      LazyReach get a ⟨(lazyAdvance get b.state key p).1, b.reads.set i (key, (lazyAdvance get b.state key p).2)⟩

end TC.CacheThreads
