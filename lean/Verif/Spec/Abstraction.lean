import Verif.Spec.Calendar
import Verif.Model.Calendar

/-!
# From a list of sessions to the package's columns
-/

namespace TC
open Spec

/-- The columns the package keeps for a list of sessions (`trading_calendar.py` lines 152-179);
a session without break has `NaT` in both break columns. -/
def Cal.ofSessions (ss : List Session) : Cal :=
  { sessions := ss.map (·.label)
    opens := ss.map (·.open)
    breakStarts := ss.map (fun s => match s.brk with | none => NP_NAT | some (b, _) => b)
    breakEnds := ss.map (fun s => match s.brk with | none => NP_NAT | some (_, e) => e)
    closes := ss.map (·.close) }

/-- The sessions a schedule (`trading_calendar.py` lines 152-179) lists: row `i` of each column, no
break where the break start is `NaT`. -/
def rowsOf (c : Cal) : List Session :=
  (List.range c.sessions.length).map fun i =>
    { label := c.sessions.getD i 0
      «open» := c.opens.getD i 0
      brk := if c.breakStarts.getD i 0 = NP_NAT then none
        else some (c.breakStarts.getD i 0, c.breakEnds.getD i 0)
      close := c.closes.getD i 0 }

/-- A small calendar used as a non-vacuity witness: three sessions of a few minutes, the second
with a break. -/
def demoSessions : List Session :=
  [ { label := 0, «open» := 1 * MINUTE, brk := none, close := 3 * MINUTE },
    { label := 100, «open» := 10 * MINUTE, brk := some (12 * MINUTE, 14 * MINUTE),
      close := 16 * MINUTE },
    { label := 200, «open» := 20 * MINUTE, brk := none, close := 21 * MINUTE } ]

theorem demo_regular : Regular demoSessions := by
  constructor
  · intro s hs
    simp [demoSessions, MINUTE] at hs
    rcases hs with rfl | rfl | rfl <;> simp [Session.Ok, NP_NAT]
  · decide
  · decide

theorem demo_whole : ∀ s ∈ demoSessions, s.WholeMinutes := by
  intro s hs
  simp [demoSessions] at hs
  rcases hs with rfl | rfl | rfl <;>
    simp [Session.WholeMinutes, Int.dvd_mul_left, Int.dvd_refl]

end TC
