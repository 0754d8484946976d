import Verif.Spec.Gaps

/-! # Specification vocabulary for the early closes and the minutes of a year -/

namespace TC.Spec

/-- Day `d` has an early close on exchange `x`, at whatever time. -/
def HasEarlyClose (x : Exchange) (d : Int) : Prop := ∃ t, ClosesEarly x d t

/-- Day `d` has an early close by the calendar class; the two simple classes have none. -/
def ClassEarly : CalendarClass → Int → Prop
  | .exchange x _ _ => HasEarlyClose x
  | .precomputed x _ => HasEarlyClose x
  | .hongKong => HasEarlyClose Xhkg.exchange
  | .simple _ => fun _ => False

/-- Year `y` has `k` minutes, if full sessions have `f` and early closes have `s`. -/
def MinutesOfYear (trades early : Int → Prop) (f s : Nat) (y : Int) (k : Nat) : Prop :=
  ∃ n e, TradingDays trades y (n + e) ∧ TradingDays early y e ∧ k = f * n + s * e

/-- The least and the greatest number of minutes of a year from `y₀` to `y₁` are `lo` and `hi`. -/
structure MinutesRange (trades early : Int → Prop) (f s : Nat) (y₀ y₁ : Int) (lo hi : Nat) : Prop where
  within : ∀ y, y₀ ≤ y → y ≤ y₁ → ∃ k, MinutesOfYear trades early f s y k ∧ lo ≤ k ∧ k ≤ hi
  least : ∃ y, y₀ ≤ y ∧ y ≤ y₁ ∧ MinutesOfYear trades early f s y lo
  greatest : ∃ y, y₀ ≤ y ∧ y ≤ y₁ ∧ MinutesOfYear trades early f s y hi

/-- The default calendars with early closes: the years in question, as in `closureTable`, and the least and the
greatest number of early closes of one of these years.  All others have none. -/
def earlyTable : List (String × Int × Int × Nat × Nat) :=
  [("CMES", 1990, 2200, 6, 8),
   ("IEPA", 1990, 2200, 5, 6),
   ("XAMS", 1990, 2200, 0, 2),
   ("XASX", 1990, 2200, 0, 2),
   ("XBRU", 1990, 2200, 0, 2),
   ("XBUE", 1990, 2200, 0, 2),
   ("XCBF", 1990, 2200, 0, 1),
   ("XDUB", 1990, 2200, 0, 3),
   ("XETR", 1990, 2200, 0, 1),
   ("XFRA", 1990, 2200, 0, 1),
   ("XHKG", 1990, 2049, 0, 3),
   ("XIST", 1990, 2200, 0, 3),
   ("XKLS", 1990, 2200, 0, 3),
   ("XLIS", 1990, 2200, 0, 2),
   ("XLON", 1990, 2200, 1, 2),
   ("XMAD", 1990, 2200, 0, 2),
   ("XNYS", 1990, 2200, 1, 4),
   ("XNZE", 1990, 2200, 0, 2),
   ("XOSL", 1990, 2200, 0, 1),
   ("XPAR", 1990, 2200, 0, 2),
   ("XSGO", 1990, 2200, 1, 4),
   ("XSTO", 1990, 2200, 3, 5),
   ("XTSE", 1990, 2200, 0, 1)]

/-- Of the calendars with early closes those whose full sessions have one length and whose early closes have one: both
lengths, the years, and the least and the greatest number of minutes of one of these years. -/
def minutesTable : List (String × Nat × Nat × Int × Int × Nat × Nat) :=
  [("CMES", 1440, 1140, 1990, 2200, 367680, 371160),
   ("IEPA", 1320, 1020, 1990, 2200, 337440, 340380),
   ("XAMS", 510, 305, 1990, 2200, 127805, 131680),
   ("XASX", 360, 250, 1990, 2200, 90500, 91800),
   ("XBRU", 510, 305, 1990, 2200, 127805, 131680),
   ("XBUE", 360, 120, 1990, 2200, 84840, 91080),
   ("XCBF", 405, 225, 1990, 2200, 101070, 103275),
   ("XDUB", 508, 268, 1990, 2200, 127804, 129568),
   ("XETR", 510, 300, 1990, 2200, 127800, 131070),
   ("XFRA", 510, 210, 1990, 2200, 127710, 131070),
   ("XIST", 480, 150, 1990, 2200, 117570, 123360),
   ("XKLS", 480, 210, 1990, 2200, 116100, 123840),
   ("XLIS", 510, 305, 1990, 2200, 125255, 131680),
   ("XLON", 510, 270, 1990, 2200, 127530, 129060),
   ("XMAD", 510, 300, 1990, 2200, 126990, 131670),
   ("XNZE", 405, 165, 1990, 2200, 100770, 102465),
   ("XOSL", 440, 240, 1990, 2200, 109360, 111560),
   ("XPAR", 510, 305, 1990, 2200, 128315, 131680),
   ("XSTO", 510, 240, 1990, 2200, 125910, 128190),
   ("XTSE", 390, 210, 1990, 2200, 97500, 98670)]

end TC.Spec
