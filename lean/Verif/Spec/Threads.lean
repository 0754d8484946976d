import Verif.Model.Threads
import Verif.Spec.Dispatcher

/-!
# Specification vocabulary for concurrent calls
-/

namespace TC.Spec
open TC.Threads TC.Registry

/-- The call has returned or raised. -/
def Finished (c : Call) : Prop := ∃ r, c.pc = .done r

/-- A call of `register_calendar_alias` that has not finished. -/
def RegisteringAlias (c : Call) : Prop := (∃ a r f, c.op = .registerAlias a r f) ∧ ¬ Finished c

/-- Calls that register nothing and remove nothing. -/
def OnlyReads : Op → Prop
  | .get _ | .has _ | .names | .resolve _ => True
  | _ => False

/-- Each step of the one call on the registry, with nothing in between. -/
inductive Alone (env : FactoryEnv) : Registry → Pc → Registry → Pc → Prop
  | refl (s p) : Alone env s p s p
  | step {s p s' p'} : Alone env (advance env s p).1 (advance env s p).2 s' p' → Alone env s p s' p'

/-- What `get_calendar(name)` may answer while others only read: as if it was alone, except that the factory
may have run for others before, or for each of several. -/
structure GetAnswer (env : FactoryEnv) (s : Registry) (name : String) (r : Py Out) : Prop where
  cached : ∀ c o, ResolvesTo s.aliases.get? name c → s.calendars.get? c = some o → r = .ok (.cal o)
  made : ∀ c f, ResolvesTo s.aliases.get? name c → s.calendars.get? c = none → s.factories.get? c = some f →
    ∃ log, r = (env f log).map .cal
  unknown : ∀ c, ResolvesTo s.aliases.get? name c → s.calendars.get? c = none → s.factories.get? c = none →
    r = .error (.invalidCalendarName name)
  cyclic : Cyclic s.aliases.get? name →
    ∃ report, r = .error (.cyclicCalendarAlias report) ∧ IsCycleReport s.aliases.get? name report

/-- The call is past its look at the cached calendar of `c`, or is about to remove or replace it. -/
def Touches (c : String) : Pc → Prop
  | .factory _ n | .make n _ | .store n _ => n = c
  | .has2 n (some (.cal _)) | .has3 n (some (.cal _)) | .set n (.cal _) => n = c
  | .pop1 n _ => n = c
  | .clear1 => True
  | _ => False

/-- The calendar `o` is cached for `c`, and no call is about to replace it. -/
def Settled (c : String) (o : CalObj) (b : Sys) : Prop :=
  b.reg.calendars.get? c = some o ∧ ∀ d ∈ b.calls, ¬ Touches c d.pc

end TC.Spec
