import Verif.Model.Dispatchers
import Verif.Spec.Dispatcher

/-!
# Specification vocabulary for several dispatchers
-/

namespace TC.Spec
open TC.Dispatchers TC.Registry

/-- What can happen in a program: dictionaries are made, or changed by code that has a reference to them;
dispatchers are made from such dictionaries; methods of dispatchers are called. -/
inductive Event where
  | make (c : Dict CalObj) (f : Dict Factory) (a : Dict String)
  | change (r : Nat) (c : Dict CalObj) (f : Dict Factory) (a : Dict String)
  | construct (c f a : Nat)
  | call (d : Disp) (op : Op)

/-- The event can happen, and this is the state afterwards. -/
inductive Happens (env : FactoryEnv) : Heap → Event → Heap → Prop where
  | make {h : Heap} (c : Dict CalObj) (f : Dict Factory) (a : Dict String) :
      Happens env h (.make c f a) (h.alloc c f a)
  | change {h : Heap} {r : Nat} (c : Dict CalObj) (f : Dict Factory) (a : Dict String) : r ∈ h.held →
      Happens env h (.change r c f a) { h with cals := upd h.cals r c, facs := upd h.facs r f, als := upd h.als r a }
  | construct {h : Heap} {c f a : Nat} : c ∈ h.held → f ∈ h.held → a ∈ h.held →
      Happens env h (.construct c f a) (h.construct c f a).1
  | call {h : Heap} {d : Disp} (op : Op) : d ∈ h.disps → Happens env h (.call d op) (h.call env d op).1

/-- A program: the events in order, and the state afterwards. -/
inductive Program (env : FactoryEnv) : Heap → List Event → Heap → Prop where
  | nil (h : Heap) : Program env h [] h
  | cons {h h' h'' : Heap} {e : Event} {es : List Event} : Happens env h e h' → Program env h' es h'' →
      Program env h (e :: es) h''

/-- Nothing has been made yet. -/
def emptyHeap : Heap := ⟨fun _ => [], fun _ => [], fun _ => [], 0, [], [], []⟩

/-- A state that some program leads to. -/
def ReachedBy (env : FactoryEnv) (h : Heap) : Prop := ∃ es, Program env emptyHeap es h

/-- What the dispatcher has: calendars, factories, aliases. -/
def tables (h : Heap) (d : Disp) : Dict CalObj × Dict Factory × Dict String :=
  (h.cals d.cals, h.facs d.facs, h.als d.als)

end TC.Spec
