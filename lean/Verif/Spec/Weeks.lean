import Verif.Spec.Gaps

/-! # Specification vocabulary for the trading days of a week -/

namespace TC.Spec

/-- The week that begins with day `w` has `n` trading days. -/
def WeekTradingDays (trades : Int → Prop) (w : Int) (n : Nat) : Prop :=
  ∃ l : List Int, l.Pairwise (· < ·) ∧ (∀ d, d ∈ l ↔ (w ≤ d ∧ d < w + 7) ∧ trades d) ∧ l.length = n

/-- Day `w` is a Monday, and its week lies within the years from `y₀` to `y₁`. -/
def WeekWithin (y₀ y₁ w : Int) : Prop :=
  IsWeekday w 0 ∧ ∃ a z, DayNumber ⟨y₀, 1, 1⟩ a ∧ DayNumber ⟨y₁, 12, 31⟩ z ∧ a ≤ w ∧ w + 6 ≤ z

/-- The least and the greatest number of trading days of a week within the years from `y₀` to `y₁` are `lo` and
`hi`.  The weeks without a trading day are exactly those whose Mondays are listed. -/
structure WeeklyRange (trades : Int → Prop) (y₀ y₁ : Int) (lo hi : Nat) (empty : List Date) : Prop where
  within : ∀ w, WeekWithin y₀ y₁ w → ∃ n, WeekTradingDays trades w n ∧ lo ≤ n ∧ n ≤ hi
  least : ∃ w, WeekWithin y₀ y₁ w ∧ WeekTradingDays trades w lo
  greatest : ∃ w, WeekWithin y₀ y₁ w ∧ WeekTradingDays trades w hi
  closed : ∀ w, WeekWithin y₀ y₁ w →
    ((∀ d, w ≤ d → d < w + 7 → ¬ trades d) ↔ ∃ x ∈ empty, DayNumber x w)
  listed : ∀ x ∈ empty, ∃ w, DayNumber x w ∧ WeekWithin y₀ y₁ w

/-- The default calendars: the years in question (those of `closureTable`), the least and the greatest number of
sessions of a week, and the Mondays of the weeks without a session. -/
def weeklyTable : List (String × Int × Int × Nat × Nat × List Date) :=
  [("ASEX", 1990, 2200, 0, 5, [⟨2015, 6, 29⟩, ⟨2015, 7, 6⟩, ⟨2015, 7, 13⟩, ⟨2015, 7, 20⟩, ⟨2015, 7, 27⟩]),
   ("BVMF", 1990, 2200, 3, 5, []),
   ("CMES", 1990, 2200, 3, 5, []),
   ("IEPA", 1990, 2200, 3, 5, []),
   ("XAMS", 1990, 2200, 3, 5, []),
   ("XASX", 1990, 2200, 2, 5, []),
   ("XBKK", 1990, 2200, 2, 5, []),
   ("XBOG", 1990, 2200, 2, 5, []),
   ("XBOM", 1997, 2020, 2, 5, []),
   ("XBRU", 1990, 2200, 3, 5, []),
   ("XBUD", 1990, 2200, 1, 5, []),
   ("XBUE", 1990, 2200, 0, 5, [⟨2002, 1, 7⟩, ⟨2002, 4, 22⟩]),
   ("XCBF", 1990, 2200, 3, 5, []),
   ("XCSE", 1990, 2200, 2, 5, []),
   ("XDUB", 1990, 2200, 2, 5, []),
   ("XFRA", 1990, 2200, 2, 5, []),
   ("XETR", 1990, 2200, 2, 5, []),
   ("XHEL", 1990, 2200, 2, 5, []),
   ("XHKG", 1990, 2049, 2, 5, []),
   ("XICE", 1990, 2200, 2, 5, []),
   ("XIDX", 1990, 2200, 0, 5, [⟨2003, 11, 24⟩, ⟨2004, 11, 15⟩, ⟨2006, 10, 23⟩, ⟨2011, 8, 29⟩, ⟨2013, 8, 5⟩,
      ⟨2014, 7, 28⟩, ⟨2016, 7, 4⟩, ⟨2017, 6, 26⟩, ⟨2018, 6, 11⟩, ⟨2019, 6, 3⟩]),
   ("XIST", 1990, 2200, 0, 5, [⟨2003, 2, 10⟩, ⟨2003, 11, 24⟩, ⟨2006, 1, 9⟩, ⟨2029, 4, 23⟩]),
   ("XJSE", 1990, 2200, 2, 5, []),
   ("XKAR", 1990, 2200, 0, 5, [⟨2006, 10, 23⟩]),
   ("XKLS", 1990, 2200, 1, 5, []),
   ("XKRX", 1986, 2021, 0, 5, [⟨1986, 12, 29⟩, ⟨1987, 12, 28⟩, ⟨1992, 12, 28⟩, ⟨2017, 10, 2⟩]),
   ("XLIM", 1990, 2200, 2, 5, []),
   ("XLIS", 1990, 2200, 2, 5, []),
   ("XLON", 1990, 2200, 2, 5, []),
   ("XMAD", 1990, 2200, 2, 5, []),
   ("XMEX", 1990, 2200, 2, 5, []),
   ("XMIL", 1990, 2200, 2, 5, []),
   ("XMOS", 1990, 2200, 0, 5, [⟨2005, 1, 3⟩, ⟨2006, 1, 2⟩, ⟨2007, 1, 1⟩, ⟨2007, 12, 31⟩, ⟨2009, 1, 5⟩,
      ⟨2010, 1, 4⟩, ⟨2011, 1, 3⟩, ⟨2012, 12, 31⟩]),
   ("XNYS", 1990, 2200, 1, 5, []),
   ("XNZE", 1990, 2200, 2, 5, []),
   ("XOSL", 1990, 2200, 2, 5, []),
   ("XPAR", 1990, 2200, 3, 5, []),
   ("XPHS", 1990, 2200, 0, 5, [⟨2008, 12, 29⟩]),
   ("XPRA", 1990, 2200, 2, 5, []),
   ("XSES", 1986, 2020, 2, 5, []),
   ("XSGO", 1990, 2200, 2, 5, []),
   ("XSHG", 1999, 2025, 0, 5, [⟨1999, 2, 15⟩, ⟨1999, 2, 22⟩, ⟨2000, 1, 31⟩, ⟨2000, 2, 7⟩, ⟨2000, 5, 1⟩,
      ⟨2000, 10, 2⟩, ⟨2001, 1, 22⟩, ⟨2001, 1, 29⟩, ⟨2001, 10, 1⟩, ⟨2002, 2, 11⟩, ⟨2002, 2, 18⟩,
      ⟨2002, 9, 30⟩, ⟨2003, 2, 3⟩, ⟨2003, 5, 5⟩, ⟨2004, 1, 19⟩, ⟨2004, 5, 3⟩, ⟨2005, 2, 7⟩, ⟨2005, 5, 2⟩,
      ⟨2005, 10, 3⟩, ⟨2006, 1, 30⟩, ⟨2006, 5, 1⟩, ⟨2006, 10, 2⟩, ⟨2007, 2, 19⟩, ⟨2007, 10, 1⟩, ⟨2008, 9, 29⟩,
      ⟨2009, 1, 26⟩, ⟨2010, 2, 15⟩, ⟨2011, 10, 3⟩, ⟨2012, 1, 23⟩, ⟨2012, 10, 1⟩, ⟨2013, 2, 11⟩, ⟨2016, 2, 8⟩,
      ⟨2016, 10, 3⟩, ⟨2017, 10, 2⟩, ⟨2018, 10, 1⟩, ⟨2019, 2, 4⟩, ⟨2023, 1, 23⟩]),
   ("XSTO", 1990, 2200, 2, 5, []),
   ("XSWX", 1990, 2200, 2, 5, []),
   ("XTAE", 1990, 2200, 2, 5, []),
   ("XTAI", 1990, 2200, 0, 5, [⟨1998, 1, 26⟩, ⟨2001, 1, 22⟩, ⟨2002, 2, 11⟩, ⟨2004, 1, 19⟩, ⟨2005, 2, 7⟩,
      ⟨2007, 2, 19⟩, ⟨2008, 2, 4⟩, ⟨2009, 1, 26⟩, ⟨2010, 2, 15⟩, ⟨2011, 1, 31⟩, ⟨2012, 1, 23⟩, ⟨2013, 2, 11⟩,
      ⟨2015, 2, 16⟩, ⟨2016, 2, 8⟩, ⟨2019, 2, 4⟩, ⟨2025, 1, 27⟩, ⟨2028, 1, 24⟩, ⟨2032, 2, 9⟩, ⟨2042, 1, 20⟩]),
   ("XTKS", 2000, 2200, 0, 5, [⟨2019, 4, 29⟩]),
   ("XTSE", 1990, 2200, 3, 5, []),
   ("XWAR", 1990, 2200, 2, 5, []),
   ("XWBO", 1990, 2200, 2, 5, []),
   ("us_futures", 2000, 2200, 4, 5, []),
   ("24/7", 1990, 2200, 7, 7, []),
   ("24/5", 1990, 2200, 5, 5, [])]

end TC.Spec
