import Verif.Spec.Build
import Verif.Spec.Defaults
import Verif.Model.CheckHolidays

/-!
# Specification vocabulary for the comparison with a holiday key

`key` and `sessions` say which timestamps are in the key and in the calendar.
-/

namespace TC.Spec
open CheckHolidays (Line Args World)

/-- Time `t` is not before the first session, the first date of the key and the minimum date. -/
def NotBefore (key sessions : Int → Prop) (minDate t : Int) : Prop :=
  (∃ s, sessions s ∧ s ≤ t) ∧ (∃ k, key k ∧ k ≤ t) ∧ minDate ≤ t

/-- Time `t` is not after the last session and the last date of the key. -/
def NotAfter (key sessions : Int → Prop) (t : Int) : Prop :=
  (∃ s, sessions s ∧ t ≤ s) ∧ ∃ k, key k ∧ t ≤ k

/-- Day `d` is in the range that key and calendar have in common. -/
def Compared (key sessions : Int → Prop) (minDate d : Int) : Prop :=
  NotBefore key sessions minDate (d * DAY) ∧ NotAfter key sessions (d * DAY)

/-- Saturday or Sunday. -/
def Weekend (d : Int) : Prop := IsWeekday d 5 ∨ IsWeekday d 6

/-- A compared day on which the calendar has a session, though it is in the key or at the weekend. -/
def OpenAgainstKey (key sessions : Int → Prop) (minDate d : Int) : Prop :=
  Compared key sessions minDate d ∧ sessions (d * DAY) ∧ (key (d * DAY) ∨ Weekend d)

/-- A compared weekday on which the calendar has no session, though it is not in the key. -/
def ClosedAgainstKey (key sessions : Int → Prop) (minDate d : Int) : Prop :=
  Compared key sessions minDate d ∧ ¬ sessions (d * DAY) ∧ ¬ key (d * DAY) ∧ ¬ Weekend d

/-- The days of `P`, in order. -/
def ListsDays (P : Int → Prop) (ds : List Int) : Prop := ds.Pairwise (· < ·) ∧ ∀ d, d ∈ ds ↔ P d

/-- A heading and the days under it; nothing if there is no day. -/
def Listing (heading : Line) (ds : List Int) : List Line :=
  if ds = [] then [] else heading :: ds.map Line.date

/-- `n` different timestamps are in the key. -/
def KeySize (key : Int → Prop) (n : Nat) : Prop := ∃ xs : List Int, xs.Nodup ∧ xs.length = n ∧ ∀ t, t ∈ xs ↔ key t

/-- The report on one calendar. -/
inductive Report (key sessions : Int → Prop) (minDate : Int) (cls name : String) : List Line → Prop
  /-- the key has nothing on it -/
  | nothing : (∀ t, ¬ key t) → Report key sessions minDate cls name [.noHolidays name, .blank]
  /-- the range, the days on either side, and the verdict -/
  | compared {n : Nat} {first last : Int} {opens closed : List Int} :
      KeySize key n → 0 < n →
      NotBefore key sessions minDate (first * DAY) →
      (∀ t, NotBefore key sessions minDate t → first * DAY ≤ t) →
      NotAfter key sessions (last * DAY) → (∀ t, NotAfter key sessions t → t ≤ last * DAY) →
      ListsDays (OpenAgainstKey key sessions minDate) opens →
      ListsDays (ClosedAgainstKey key sessions minDate) closed →
      Report key sessions minDate cls name
        ([.checking n cls name first last]
          ++ Listing (.tradingDays name) opens ++ Listing (.closedDays name) closed
          ++ (if opens = [] ∧ closed = [] then [.matches name] else []) ++ [.blank])

/-- The name under which a calendar is looked up in the key. -/
inductive LookedUp (a : Args) (name : String) : String → Prop
  | given {n : String} : a.answerName = some n → n ≠ "" → LookedUp a name n
  | plain : a.answerName = none ∨ a.answerName = some "" → a.stripX = false → LookedUp a name name
  | stripped {k : Nat} {rest : String} : a.answerName = none ∨ a.answerName = some "" → a.stripX = true →
      name.toList = List.replicate k 'X' ++ rest.toList → rest.toList.head? ≠ some 'X' →
      LookedUp a name rest

/-- The dates that the key has for a calendar. -/
def KeyFor (a : Args) (name : String) (t : Int) : Prop := ∃ code, LookedUp a name code ∧ (code, t) ∈ a.rows

/-- The calendar is to be checked. -/
def Selected (a : Args) (name : String) : Prop := a.calendars = [] ∨ name ∈ a.calendars

/-- All dates of the key, and the minimum date, are midnights. -/
def WholeDays (a : Args) : Prop := (∀ r ∈ a.rows, DAY ∣ r.2) ∧ DAY ∣ a.minDate

/-- The calendar of a default class, by its contract (C58). -/
def ClassSession (now : Int) (cls : CalendarClass) (t : Int) : Prop :=
  ∃ d, t = d * DAY ∧ ClassCovers now cls d ∧ ClassTrades cls d

/-- The report on a default calendar, from a calendar object that `get_calendar` returned. -/
def DefaultReport (w : World) (now : Int) (a : Args) (name : String) (lines : List Line) : Prop :=
  ∃ cls c, (name, cls) ∈ defaultClasses ∧ cls.construct now = .ok (w.content c) ∧
    Report (KeyFor a name) (ClassSession now cls) a.minDate (w.className c) name lines

end TC.Spec
