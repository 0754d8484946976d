import Verif.Py

/-!
# Model of `trading_calendars/calendar_utils.py::TradingCalendarDispatcher`
-/

namespace TC

/-- A Python `dict` with string keys, in insertion order (the three dictionaries of `calendar_utils.py` lines
165-168). -/
abbrev Dict (V : Type) := List (String × V)

namespace Dict
variable {V : Type}

/-- `d.get(k)` / `d[k]` (`calendar_utils.py` lines 187, 193 and 346) -/
def get? (d : Dict V) (k : String) : Option V :=
  match d with
  | [] => none
  | (k', v) :: rest => if k' = k then some v else get? rest k

/-- `k in d` (`calendar_utils.py` lines 226-228 and 344) -/
def has (d : Dict V) (k : String) : Bool := (d.get? k).isSome

/-- `d[k] = v` (`calendar_utils.py` lines 199, 257, 288 and 318) -/
def set (d : Dict V) (k : String) (v : V) : Dict V :=
  match d with
  | [] => [(k, v)]
  | (k', v') :: rest => if k' = k then (k, v) :: rest else (k', v') :: set rest k v

/-- `d.pop(k, None)` / `del d[k]` (`calendar_utils.py` lines 325 and 367-369) -/
def del (d : Dict V) (k : String) : Dict V := d.filter (fun p => decide (p.1 ≠ k))

/-- `d.keys()` (`calendar_utils.py` lines 214-216) -/
def keys (d : Dict V) : List String := d.map Prod.fst

end Dict

/-- `list(set(xs))` up to the (unspecified) iteration order of the set (`calendar_utils.py` lines 211-219). -/
def dedup : List String → List String
  | [] => []
  | x :: xs => if x ∈ xs then dedup xs else x :: dedup xs

/-- Identity of a calendar object (`TradingCalendar` instance) (values of `_calendars`, `calendar_utils.py` line 166).
-/
abbrev CalObj := Nat
/-- Identity of a factory (a calendar class or function) (values of `_calendar_factories`, `calendar_utils.py` line
167). -/
abbrev Factory := Nat

/-- The dispatcher's state: `self._calendars`, `self._calendar_factories`, `self._aliases`
(`calendar_utils.py` lines 165-168).  `calls` is a ghost log of factory invocations, oldest
first; it is not read by the code, only by the factories' behaviour (`FactoryEnv`). -/
structure Registry where
  calendars : Dict CalObj
  factories : Dict Factory
  aliases : Dict String
  calls : List Factory
  deriving DecidableEq, Repr

/-- Behaviour of factories: what calling factory `f` after the invocations `log` yields.  It may
raise, and different calls may give different objects (`calendar_utils.py` line 199). -/
abbrev FactoryEnv := Factory → (log : List Factory) → Py CalObj

/-- Number of alias keys not in `seen`; the termination measure of `resolveLoop` (for the loop of `calendar_utils.py`
lines 344-354). -/
def unseen (al : Dict String) (seen : List String) : Nat :=
  al.countP (fun p => decide (p.1 ∉ seen))

theorem Dict.get?_mem {V : Type} {d : Dict V} {k : String} {v : V} (h : d.get? k = some v) :
    (k, v) ∈ d := by
  induction d with
  | nil => simp [Dict.get?] at h
  | cons p rest ih =>
    obtain ⟨k', v'⟩ := p
    simp only [Dict.get?] at h
    split at h
    · simp only [Option.some.injEq] at h; subst_vars; simp
    · exact List.mem_cons_of_mem _ (ih h)

theorem unseen_mono (al : Dict String) (seen : List String) (x : String) :
    unseen al (seen ++ [x]) ≤ unseen al seen := by
  unfold unseen
  apply List.countP_mono_left
  intro p _ hp
  simp only [decide_eq_true_eq, List.mem_append, not_or] at *
  exact hp.1

theorem unseen_lt {al : Dict String} {seen : List String} {x v : String}
    (hx : x ∉ seen) (hv : (x, v) ∈ al) : unseen al (seen ++ [x]) < unseen al seen := by
  unfold unseen
  induction al with
  | nil => simp at hv
  | cons p rest ih =>
    simp only [List.countP_cons]
    have hm : List.countP (fun p => decide (p.1 ∉ seen ++ [x])) rest
        ≤ List.countP (fun p => decide (p.1 ∉ seen)) rest := unseen_mono rest seen x
    rcases List.mem_cons.mp hv with h | h
    · subst h
      simp [hx]
      simp at hm
      omega
    · have := ih h
      by_cases hp : p.1 ∈ seen
      · simp [hp]; simp at this; omega
      · by_cases hpx : p.1 = x
        · simp [hpx, hx]; simp at this; omega
        · simp [hp, hpx]; simp at this; omega

/-- The `while` loop of `resolve_alias` (`calendar_utils.py` lines 342-356), with its accumulated
`seen` list.  It is defined by well-founded recursion: the termination proof is for every alias
table, cyclic or not. -/
def resolveLoop (al : Dict String) (seen : List String) (name : String) : Py String :=
  match h : al.get? name with
  | none => .ok name
  | some next =>
      if next ∈ seen ++ [name] then .error (.cyclicCalendarAlias (seen ++ [name] ++ [next]))
      else resolveLoop al (seen ++ [name]) next
termination_by 2 * unseen al seen + (if name ∈ seen then 1 else 0)
decreasing_by
  rename_i hn
  rw [if_neg hn]
  by_cases hs : name ∈ seen
  · have := unseen_mono al seen name
    rw [if_pos hs]; omega
  · have := unseen_lt hs (Dict.get?_mem h)
    omega

namespace Registry

/-- `resolve_alias`, `calendar_utils.py` lines 328-356. -/
def resolveAlias (s : Registry) (name : String) : Py String := resolveLoop s.aliases [] name

/-- `has_calendar`, `calendar_utils.py` lines 221-229. -/
def hasCalendar (s : Registry) (name : String) : Bool :=
  s.calendars.has name || s.factories.has name || s.aliases.has name

/-- `get_calendar_names`, `calendar_utils.py` lines 202-219: `list(set(chain(...)))`.  A Python set iterates in an
unspecified order; the model fixes one order. -/
def getCalendarNames (s : Registry) : List String :=
  dedup (s.calendars.keys ++ s.factories.keys ++ s.aliases.keys)

/-- `get_calendar`, `calendar_utils.py` lines 170-200. -/
def getCalendar (env : FactoryEnv) (s : Registry) (name : String) : Registry × Py CalObj :=
  match s.resolveAlias name with
  | .error e => (s, .error e)
  | .ok canonical =>
    match s.calendars.get? canonical with
    | some c => (s, .ok c)
    | none =>
      match s.factories.get? canonical with
      | none => (s, .error (.invalidCalendarName name))
      | some f =>
        match env f s.calls with
        | .error e => ({ s with calls := s.calls ++ [f] }, .error e)
        | .ok c =>
          ({ s with calendars := s.calendars.set canonical c, calls := s.calls ++ [f] }, .ok c)

/-- `deregister_calendar`, `calendar_utils.py` lines 358-369. -/
def deregister (s : Registry) (name : String) : Registry :=
  { s with
    calendars := s.calendars.del name
    factories := s.factories.del name
    aliases := s.aliases.del name }

/-- `clear_calendars`, `calendar_utils.py` lines 371-377. -/
def clear (s : Registry) : Registry := { s with calendars := [], factories := [], aliases := [] }

/-- `register_calendar`, `calendar_utils.py` lines 231-257. -/
def registerCalendar (s : Registry) (name : String) (c : CalObj) (force : Bool) :
    Registry × Py Unit :=
  let s := if force then s.deregister name else s
  if s.hasCalendar name then (s, .error (.calendarNameCollision name))
  else ({ s with calendars := s.calendars.set name c }, .ok ())

/-- `register_calendar_type`, `calendar_utils.py` lines 259-288. -/
def registerCalendarType (s : Registry) (name : String) (f : Factory) (force : Bool) :
    Registry × Py Unit :=
  let s := if force then s.deregister name else s
  if s.hasCalendar name then (s, .error (.calendarNameCollision name))
  else ({ s with factories := s.factories.set name f }, .ok ())

/-- `register_calendar_alias`, `calendar_utils.py` lines 290-326. -/
def registerCalendarAlias (s : Registry) (alias real : String) (force : Bool) :
    Registry × Py Unit :=
  let s := if force then s.deregister alias else s
  if s.hasCalendar alias then (s, .error (.calendarNameCollision alias))
  else
    let s' := { s with aliases := s.aliases.set alias real }
    match s'.resolveAlias alias with
    | .error e => ({ s' with aliases := s'.aliases.del alias }, .error e)
    | .ok _ => (s', .ok ())

/-- The public calls of the dispatcher (`calendar_utils.py` lines 170-377). -/
inductive Op where
  | get (name : String)
  | has (name : String)
  | names
  | resolve (name : String)
  | registerCal (name : String) (c : CalObj) (force : Bool)
  | registerType (name : String) (f : Factory) (force : Bool)
  | registerAlias (alias real : String) (force : Bool)
  | deregister (name : String)
  | clear
  deriving DecidableEq, Repr

/-- What a public call returns (`calendar_utils.py` lines 170-377). -/
inductive Out where
  | unit
  | cal (c : CalObj)
  | bool (b : Bool)
  | names (l : List String)
  | name (s : String)
  deriving DecidableEq, Repr

/-- One public call on the dispatcher: new state and result (or exception) (`calendar_utils.py` lines 170-377). -/
def step (env : FactoryEnv) (s : Registry) : Op → Registry × Py Out
  | .get n => let r := s.getCalendar env n; (r.1, r.2.map .cal)
  | .has n => (s, .ok (.bool (s.hasCalendar n)))
  | .names => (s, .ok (.names s.getCalendarNames))
  | .resolve n => (s, (s.resolveAlias n).map .name)
  | .registerCal n c f => let r := s.registerCalendar n c f; (r.1, r.2.map fun _ => .unit)
  | .registerType n t f => let r := s.registerCalendarType n t f; (r.1, r.2.map fun _ => .unit)
  | .registerAlias a r f => let r := s.registerCalendarAlias a r f; (r.1, r.2.map fun _ => .unit)
  | .deregister n => (s.deregister n, .ok .unit)
  | .clear => (s.clear, .ok .unit)

/-- State after a history of calls; calls that raise are part of the history (the caller may
catch the exception and go on) (`calendar_utils.py` lines 170-377). -/
def run (env : FactoryEnv) (s : Registry) (ops : List Op) : Registry :=
  ops.foldl (fun s op => (s.step env op).1) s

end Registry

/-- Keys of `_default_calendar_factories`, `calendar_utils.py` lines 62-118. -/
def defaultFactoryNames : List String :=
  ["ASEX", "BVMF", "CMES", "IEPA", "XAMS", "XASX", "XBKK", "XBOG", "XBOM", "XBRU", "XBUD", "XBUE",
   "XCBF", "XCSE", "XDUB", "XFRA", "XETR", "XHEL", "XHKG", "XICE", "XIDX", "XIST", "XJSE", "XKAR",
   "XKLS", "XKRX", "XLIM", "XLIS", "XLON", "XMAD", "XMEX", "XMIL", "XMOS", "XNYS", "XNZE", "XOSL",
   "XPAR", "XPHS", "XPRA", "XSES", "XSGO", "XSHG", "XSTO", "XSWX", "XTAE", "XTAI", "XTKS", "XTSE",
   "XWAR", "XWBO", "us_futures", "24/7", "24/5"]

/-- `_default_calendar_aliases`, `calendar_utils.py` lines 119-144. -/
def defaultAliases : Dict String :=
  [("NYSE", "XNYS"), ("NASDAQ", "XNYS"), ("BATS", "XNYS"), ("FWB", "XFRA"), ("LSE", "XLON"),
   ("TSX", "XTSE"), ("BMF", "BVMF"), ("CME", "CMES"), ("CBOT", "CMES"), ("COMEX", "CMES"),
   ("NYMEX", "CMES"), ("ICE", "IEPA"), ("ICEUS", "IEPA"), ("NYFE", "IEPA"), ("CFE", "XCBF"),
   ("JKT", "XIDX"), ("SIX", "XSWX"), ("JPX", "XTKS"), ("ASX", "XASX"), ("HKEX", "XHKG"),
   ("OSE", "XOSL"), ("BSE", "XBOM"), ("SSE", "XSHG"), ("TASE", "XTAE")]

/-- `global_calendar_dispatcher`, `calendar_utils.py` lines 383-387: no calendars yet, one factory per default name
(here: its position in the table), the default aliases. -/
def defaultRegistry : Registry :=
  { calendars := []
    factories := defaultFactoryNames.zip (List.range defaultFactoryNames.length)
    aliases := defaultAliases
    calls := [] }

end TC
