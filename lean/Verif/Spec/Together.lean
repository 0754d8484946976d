import Verif.Spec.Agree

/-! # Specification vocabulary for markets that are open at the same time -/

namespace TC.Spec

/-- Whenever the first calendar is open, so is the second. -/
def OpenWithin (c c' : Cal) : Prop := ∀ t, c.isOpenOnMinute t = .ok true → c'.isOpenOnMinute t = .ok true

/-- The markets of Euronext. -/
def euronext : List String := ["XAMS", "XBRU", "XLIS", "XPAR"]

/-- Names of which the second is open whenever the first is, in ranges from that date on. -/
def openWith : List (String × String × Date) :=
  [("XNYS", "us_futures", ⟨1976, 1, 2⟩),
   ("IEPA", "us_futures", ⟨1976, 1, 2⟩),
   ("CMES", "us_futures", ⟨1976, 1, 2⟩),
   ("XSWX", "us_futures", ⟨1996, 1, 2⟩),
   ("XMAD", "XAMS", ⟨2011, 1, 1⟩)]

/-- The same for ranges that end before 2201: from then on the first has no holidays (`exchange_calendar_*.py`
ask for holidays up to 2200 only), but the second still closes early. -/
def openWithTo2200 : List (String × String × Date) :=
  [("XNYS", "IEPA", ⟨1976, 1, 2⟩),
   ("XNYS", "CMES", ⟨1993, 1, 2⟩),
   ("XNYS", "XCBF", ⟨1976, 1, 2⟩),
   ("XETR", "XAMS", ⟨2001, 6, 5⟩),
   ("XFRA", "XAMS", ⟨2001, 6, 5⟩),
   ("XHEL", "XAMS", ⟨2001, 6, 5⟩),
   ("XMIL", "XAMS", ⟨2001, 6, 5⟩),
   ("XOSL", "XAMS", ⟨2001, 5, 1⟩),
   ("XSTO", "XAMS", ⟨2001, 5, 1⟩),
   ("XSWX", "XAMS", ⟨2001, 5, 1⟩)]

end TC.Spec
