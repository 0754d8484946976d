import Verif.Model.Reentrant
import Verif.Spec.Dispatcher

/-!
# Factories that call the dispatcher: specification vocabulary
-/

namespace TC.Spec
open Registry Reentrant

/-- Calls that look something up. -/
def Looks : Op → Prop
  | .get _ | .has _ | .names | .resolve _ => True
  | _ => False

/-- All the calls that the factory may make, whatever the answers, are such that `P`. -/
def Only (P : Op → Prop) : Script → Prop
  | .returns _ => True
  | .raises _ => True
  | .calls op next => P op ∧ ∀ a, Only P (next a)

/-- The factories registered in `s` only look things up, and the factory of a name only gets names of a lower rank:
calendars are made from others, but not in a circle. -/
def Layered (env : Scripts) (s : Registry) (rank : String → Nat) : Prop :=
  ∀ name f, s.factories.get? name = some f → ∀ log,
    Only (fun op => Looks op ∧ ∀ m, op = .get m → ∀ c, ResolvesTo s.aliases.get? m c → rank c < rank name) (env f log)

/-- Two names stand for the same calendar. -/
def SameName (s : Registry) (m m' : String) : Prop :=
  ∃ c, ResolvesTo s.aliases.get? m c ∧ ResolvesTo s.aliases.get? m' c

/-- Each of these answers was for a name that stands for a calendar which the dispatcher keeps. -/
def KeptNames (w : World) : Prop :=
  ∀ m o, (m, o) ∈ w.answers → ∃ c, ResolvesTo w.reg.aliases.get? m c ∧ w.reg.calendars.get? c = some o

/-- A world right after some calls of another one, when nothing but lookups happened: same factories and aliases,
calendars stay, answers are added, and factories were called for names without a calendar only. -/
structure Later (w w' : World) : Prop where
  factories : w'.reg.factories = w.reg.factories
  aliases : w'.reg.aliases = w.reg.aliases
  calendars : ∀ c o, w.reg.calendars.get? c = some o → w'.reg.calendars.get? c = some o
  answers : ∃ new, w'.answers = w.answers ++ new ∧
    ∀ m o, (m, o) ∈ new → ∃ c, ResolvesTo w.reg.aliases.get? m c ∧ w'.reg.calendars.get? c = some o
  calls : ∃ new, w'.reg.calls = w.reg.calls ++ new ∧
    ∀ f ∈ new, ∃ c, w.reg.factories.get? c = some f ∧ w.reg.calendars.get? c = none

end TC.Spec
