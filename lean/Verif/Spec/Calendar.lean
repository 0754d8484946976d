import Verif.Py

/-!
# Specification vocabulary for calendar queries

A calendar is a list of sessions; everything below is stated without the model's columns, indices
or binary searches.  Times are integers (nanoseconds).
-/

namespace TC.Spec

/-- One trading session: its label, its open and close, and its midday break, if any. -/
structure Session where
  label : Int
  «open» : Int
  brk : Option (Int × Int)
  close : Int
  deriving DecidableEq, Repr

/-- `t` lies between the open and the close, both included. -/
def Session.Spans (s : Session) (t : Int) : Prop := s.open ≤ t ∧ t ≤ s.close

instance (s : Session) (t : Int) : Decidable (s.Spans t) := inferInstanceAs (Decidable (_ ∧ _))

/-- `t` lies in the break, start included, end excluded. -/
def Session.InBreak (s : Session) (t : Int) : Prop :=
  ∃ b e, s.brk = some (b, e) ∧ b ≤ t ∧ t < e

/-- `t` is the start of the session's break. -/
def Session.BreakStart (s : Session) (t : Int) : Prop := ∃ e, s.brk = some (t, e)

/-- `t` is one of the session's minutes as the package lists them: a whole number of minutes after
the open, and in `[open, close]`, or for a session with break `(b, e)` in `[open, b] ∪ [e, close]`. -/
def Session.IsMinute (s : Session) (t : Int) : Prop :=
  MINUTE ∣ (t - s.open) ∧
    match s.brk with
    | none => s.open ≤ t ∧ t ≤ s.close
    | some (b, e) => (s.open ≤ t ∧ t ≤ b) ∨ (e ≤ t ∧ t ≤ s.close)

/-- The shape of a single session: it opens no later than it closes, at real instants, and its break is
inside, after the open. -/
def Session.Ok (s : Session) : Prop :=
  NP_NAT < s.open ∧ s.open ≤ s.close ∧
    ∀ b e, s.brk = some (b, e) → s.open < b ∧ b < e ∧ e ≤ s.close

/-- Ordered, non-overlapping sessions. -/
structure Regular (ss : List Session) : Prop where
  ok : ∀ s ∈ ss, s.Ok
  labels : ss.Pairwise (fun s s' => s.label < s'.label)
  times : ss.Pairwise (fun s s' => s.close < s'.open)

/-- All four times of the session are whole minutes. -/
def Session.WholeMinutes (s : Session) : Prop :=
  MINUTE ∣ s.open ∧ MINUTE ∣ s.close ∧ ∀ b e, s.brk = some (b, e) → MINUTE ∣ b ∧ MINUTE ∣ e

/-- `x` is the smallest element of `xs` greater than `t`. -/
def IsNext (xs : List Int) (t x : Int) : Prop := x ∈ xs ∧ t < x ∧ ∀ y ∈ xs, t < y → x ≤ y

/-- `x` is the greatest element of `xs` smaller than `t`. -/
def IsPrev (xs : List Int) (t x : Int) : Prop := x ∈ xs ∧ x < t ∧ ∀ y ∈ xs, y < t → y ≤ x

end TC.Spec
