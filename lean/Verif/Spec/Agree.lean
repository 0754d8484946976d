import Verif.Spec.Defaults

/-! # Specification vocabulary for markets with the same days -/

namespace TC.Spec

/-- The two differ on day `d` and on no later day. -/
def LastDifference (p q : Int → Prop) (d : Int) : Prop := ¬ (p d ↔ q d) ∧ ∀ e, d < e → (p e ↔ q e)

/-- Day `d` is one of the first and not of the second, and no later day is. -/
def LastException (p q : Int → Prop) (d : Int) : Prop := (p d ∧ ¬ q d) ∧ ∀ e, d < e → p e → q e

/-- Default calendars with the same trading days, and the last day on which they differ. -/
def sameSince : List (String × String × Date) :=
  [("CMES", "IEPA", ⟨2012, 10, 29⟩),
   ("CMES", "us_futures", ⟨2018, 12, 5⟩),
   ("XAMS", "XBRU", ⟨2001, 4, 30⟩),
   ("XAMS", "XPAR", ⟨2001, 4, 30⟩),
   ("XAMS", "XLIS", ⟨2002, 12, 24⟩),
   ("XAMS", "XMAD", ⟨2010, 12, 31⟩)]

/-- Default calendars of which the first has no trading days the second has not, after a last exception. -/
def withinSince : List (String × String × Date) :=
  [("XNYS", "XCBF", ⟨1970, 2, 16⟩),
   ("ASEX", "XAMS", ⟨2001, 12, 31⟩),
   ("XETR", "XAMS", ⟨2001, 6, 4⟩),
   ("XHEL", "XAMS", ⟨2001, 6, 4⟩),
   ("XICE", "XAMS", ⟨2001, 4, 30⟩),
   ("XJSE", "XAMS", ⟨2001, 12, 31⟩),
   ("XMIL", "XAMS", ⟨2001, 6, 4⟩),
   ("XOSL", "XAMS", ⟨2001, 4, 30⟩),
   ("XSTO", "XAMS", ⟨2001, 4, 30⟩),
   ("XSWX", "XAMS", ⟨2001, 4, 30⟩),
   ("XWAR", "XAMS", ⟨2001, 12, 31⟩),
   ("XWBO", "XAMS", ⟨2001, 4, 30⟩)]

/-- Default calendars with the same trading days always. -/
def sameAlways : List (String × String) := [("XETR", "XFRA")]

/-- Default calendars of which the first never has a trading day the second has not. -/
def withinAlways : List (String × String) :=
  [("XNYS", "IEPA"), ("IEPA", "CMES"), ("CMES", "us_futures"), ("XSWX", "us_futures")]

end TC.Spec
