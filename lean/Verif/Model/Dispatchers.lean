import Verif.Model.Dispatcher

/-!
# Model of several dispatchers and the dictionaries they are made from

`TradingCalendarDispatcher.__init__` and `etc/bench.py`, with dictionaries as objects that can be shared.
-/

namespace TC.Dispatchers
open TC.Registry

/-- A dispatcher: which dictionaries its attributes `_calendars`, `_calendar_factories` and `_aliases` are
(`calendar_utils.py` lines 166-168). -/
structure Disp where
  cals : Nat
  facs : Nat
  als : Nat
  deriving DecidableEq

/-- All dictionaries and all dispatchers.  Dictionaries of each kind are numbered; `next` and those after it are not
yet in use.  `held` are the dictionaries for which code outside the dispatchers has a reference (it is not part of
the program).  `calls` is the log of factory calls of the model of the dispatcher (`calendar_utils.py` lines 165-168).
-/
structure Heap where
  cals : Nat → Dict CalObj
  facs : Nat → Dict Factory
  als : Nat → Dict String
  next : Nat
  held : List Nat
  disps : List Disp
  calls : List Factory

/-- A function with one value changed (for the assignments of `calendar_utils.py` lines 166-168). -/
def upd {α : Type} (f : Nat → α) (i : Nat) (v : α) : Nat → α := fun j => if j = i then v else f j

/-- The state of dispatcher `d` in the sense of the model of a single one (`calendar_utils.py` lines 165-168). -/
def Heap.view (h : Heap) (d : Disp) : Registry := ⟨h.cals d.cals, h.facs d.facs, h.als d.als, h.calls⟩

/-- Writes the state of dispatcher `d` into its dictionaries: all methods change them in place (`calendar_utils.py`
lines 170-377). -/
def Heap.put (h : Heap) (d : Disp) (s : Registry) : Heap :=
  { h with
    cals := upd h.cals d.cals s.calendars
    facs := upd h.facs d.facs s.factories
    als := upd h.als d.als s.aliases
    calls := s.calls }

/-- A call of a method of dispatcher `d` (`calendar_utils.py` lines 170-377). -/
def Heap.call (env : FactoryEnv) (h : Heap) (d : Disp) (op : Op) : Heap × Py Out :=
  let r := (h.view d).step env op
  (h.put d r.1, r.2)

/-- `TradingCalendarDispatcher(calendars, calendar_factories, aliases)`, `calendar_utils.py` lines 165-168: the
dictionary of calendars is kept, the other two are copied. -/
def Heap.construct (h : Heap) (c f a : Nat) : Heap × Disp :=
  let d : Disp := ⟨c, h.next, h.next⟩
  ({ h with
      facs := upd h.facs h.next (h.facs f)
      als := upd h.als h.next (h.als a)
      next := h.next + 1
      disps := h.disps ++ [d] }, d)

/-- Code outside makes new dictionaries, e.g. by a display `{...}` (one number for one of each kind) (e.g.
`calendar_utils.py` line 384). -/
def Heap.alloc (h : Heap) (c : Dict CalObj) (f : Dict Factory) (a : Dict String) : Heap :=
  { h with
    cals := upd h.cals h.next c
    facs := upd h.facs h.next f
    als := upd h.als h.next a
    next := h.next + 1
    held := h.held ++ [h.next] }

/-- How a run of the benchmark ends (`etc/bench.py` lines 24-26). -/
inductive BenchEnd where
  | finished
  | raised (e : PyErr)
  /-- `RuntimeError: dictionary changed size during iteration` -/
  | changedSize
  deriving DecidableEq

/-- The loop of `construct_all_calendars`, `etc/bench.py` lines 24-26, over the keys of a dictionary that has size
`size` now and had `n` when the loop over it began (CPython compares them at each step and at the end).  Factories
that return `None`, at which the `assert` is aimed, are not modelled. -/
def benchLoop (env : FactoryEnv) (d : Disp) (size : Heap → Nat) (n : Nat) : Heap → List String → Heap × BenchEnd
  | h, [] => (h, if size h = n then .finished else .changedSize)
  | h, name :: names =>
    if size h = n then
      let r := h.call env d (.get name)
      match r.2 with
      | .error e => (r.1, .raised e)
      | .ok _ => benchLoop env d size n (r.1.call env d (.deregister name)).1 names
    else (h, .changedSize)

/-- `construct_all_calendars`, `etc/bench.py` lines 13-26, where `f` and `a` are the dictionaries
`_default_calendar_factories` and `_default_calendar_aliases`: first over the keys of `a`, then over those of `f`
(`itertools.chain`). -/
def constructAll (env : FactoryEnv) (h : Heap) (f a : Nat) : Heap × BenchEnd :=
  let h0 := h.alloc [] [] []
  let r := h0.construct h.next f a
  let b := benchLoop env r.2 (fun h => (h.als a).length) (r.1.als a).length r.1 (r.1.als a).keys
  match b.2 with
  | .finished => benchLoop env r.2 (fun h => (h.facs f).length) (b.1.facs f).length b.1 (b.1.facs f).keys
  | _ => b

end TC.Dispatchers
