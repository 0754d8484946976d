import Verif.Spec.Exchange
import Verif.Model.Construct

/-! # Specification vocabulary for the constructors of calendar classes -/

namespace TC.Spec

/-- The years from the first to the last one with an entry in the table. -/
def Recorded (table : List Int) (y : Int) : Prop :=
  (∃ d ∈ table, ∃ y', InYear d y' ∧ y' ≤ y) ∧ ∃ d ∈ table, ∃ y', InYear d y' ∧ y ≤ y'

/-- `y` is the first, `y'` the last year with an entry in the table. -/
def FirstYear (table : List Int) (y : Int) : Prop :=
  (∃ d ∈ table, InYear d y) ∧ ∀ d ∈ table, ∀ y', InYear d y' → y ≤ y'

/-- See `FirstYear`. -/
def LastYear (table : List Int) (y : Int) : Prop :=
  (∃ d ∈ table, InYear d y) ∧ ∀ d ∈ table, ∀ y', InYear d y' → y' ≤ y

/-- All sessions of the calendar are in years recorded by the table. -/
def AllRecorded (table : List Int) (b : Built) : Prop :=
  ∀ l ∈ b.cal.sessions, ∀ y, InYear (l / DAY) y → Recorded table y

end TC.Spec
