import Verif.Spec.Threads

/-!
# Specification vocabulary for calls that are interrupted

An exception that comes from outside, such as `KeyboardInterrupt`, can end a call between any two of its steps;
what the call has done by then stays done, as no function of `calendar_utils.py` has a handler for it.
-/

namespace TC.Spec
open TC.Threads TC.Registry

/-- The call, made while no other runs, can be interrupted (or be finished) with the dispatcher in state `s'`. -/
def Interrupted (env : FactoryEnv) (s : Registry) (op : Op) (s' : Registry) : Prop :=
  ∃ p, Alone env s (begin op) s' p

/-- What the dispatcher has for the name: calendar, factory, alias. -/
def has3 (s : Registry) (n : String) : Option CalObj × Option Factory × Option String :=
  (s.calendars.get? n, s.factories.get? n, s.aliases.get? n)

/-- The dispatchers have the same for every name. -/
def SameRegistry (s s' : Registry) : Prop := ∀ n, has3 s n = has3 s' n

/-- The call removes what the dispatcher has for the name, alone or before it registers something. -/
def RemovesName (n : String) : Op → Prop
  | .registerCal m _ f | .registerType m _ f | .registerAlias m _ f => m = n ∧ f = true
  | .deregister m => m = n
  | _ => False

/-- `x'` is `x`, or nothing is left of it. -/
def Kept {α : Type} (x x' : Option α) : Prop := x' = x ∨ x' = none

/-- `s'` is `s` with the alias `a` for `r`, which leads into a cycle; `a` was not known. -/
structure CycleLeft (s : Registry) (a r : String) (s' : Registry) : Prop where
  unknown : has3 s a = (none, none, none)
  now : has3 s' a = (none, none, some r)
  others : ∀ n, n ≠ a → has3 s' n = has3 s n
  cyclic : Cyclic s'.aliases.get? a

end TC.Spec
