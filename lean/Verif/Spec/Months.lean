import Verif.Spec.Gaps

/-! # Specification vocabulary for the trading days of a month -/

namespace TC.Spec

/-- Month `m` of year `y` has `n` trading days. -/
def MonthTradingDays (trades : Int → Prop) (y m : Int) (n : Nat) : Prop :=
  ∃ l : List Int, l.Pairwise (· < ·) ∧ (∀ d, d ∈ l ↔ (∃ k, DayNumber ⟨y, m, k⟩ d) ∧ trades d) ∧ l.length = n

/-- The least and the greatest number of trading days of a month from January of `y₀` to December of `y₁` are `lo`
and `hi`.  Among the first `first` days of such a month there always is a trading day, and among the last `last`
days; neither number can be made smaller. -/
structure MonthlyRange (trades : Int → Prop) (y₀ y₁ : Int) (lo hi first last : Nat) : Prop where
  within : ∀ y m, y₀ ≤ y → y ≤ y₁ → 1 ≤ m → m ≤ 12 → ∃ n, MonthTradingDays trades y m n ∧ lo ≤ n ∧ n ≤ hi
  least : ∃ y m, y₀ ≤ y ∧ y ≤ y₁ ∧ MonthTradingDays trades y m lo
  greatest : ∃ y m, y₀ ≤ y ∧ y ≤ y₁ ∧ MonthTradingDays trades y m hi
  firstBy : ∀ y m, y₀ ≤ y → y ≤ y₁ → 1 ≤ m → m ≤ 12 → ∃ k d, DayNumber ⟨y, m, k⟩ d ∧ k ≤ first ∧ trades d
  firstAt : ∃ y m, y₀ ≤ y ∧ y ≤ y₁ ∧ 1 ≤ m ∧ m ≤ 12 ∧
    ∀ k d, DayNumber ⟨y, m, k⟩ d → k < first → ¬ trades d
  lastFrom : ∀ y m, y₀ ≤ y → y ≤ y₁ → 1 ≤ m → m ≤ 12 →
    ∃ k d, DayNumber ⟨y, m, k⟩ d ∧ monthLength y m - last < k ∧ trades d
  lastAt : ∃ y m, y₀ ≤ y ∧ y ≤ y₁ ∧ 1 ≤ m ∧ m ≤ 12 ∧
    ∀ k d, DayNumber ⟨y, m, k⟩ d → monthLength y m - last + 1 < k → ¬ trades d

/-- The default calendars: the years in question (those of `closureTable`, of ASEX those after the closure of July
2015), the least and the greatest number of sessions of a month, and among how many of its first and of its last
days there is a session. -/
def monthTable : List (String × Int × Int × Nat × Nat × Nat × Nat) :=
  [("ASEX", 2016, 2200, 18, 23, 5, 5),
   ("BVMF", 1990, 2200, 18, 23, 5, 5),
   ("CMES", 1990, 2200, 19, 23, 4, 4),
   ("IEPA", 1990, 2200, 19, 23, 4, 4),
   ("XAMS", 1990, 2200, 18, 23, 5, 5),
   ("XASX", 1990, 2200, 17, 23, 5, 5),
   ("XBKK", 1990, 2200, 16, 23, 6, 5),
   ("XBOG", 1990, 2200, 18, 23, 5, 5),
   ("XBOM", 1997, 2020, 17, 23, 4, 4),
   ("XBRU", 1990, 2200, 18, 23, 5, 5),
   ("XBUD", 1990, 2200, 17, 23, 5, 5),
   ("XBUE", 1990, 2200, 14, 23, 6, 6),
   ("XCBF", 1990, 2200, 19, 23, 4, 4),
   ("XCSE", 1990, 2200, 17, 23, 6, 6),
   ("XDUB", 1990, 2200, 18, 23, 5, 5),
   ("XFRA", 1990, 2200, 17, 23, 5, 5),
   ("XETR", 1990, 2200, 17, 23, 5, 5),
   ("XHEL", 1990, 2200, 16, 23, 5, 5),
   ("XHKG", 1990, 2049, 16, 23, 6, 5),
   ("XICE", 1990, 2200, 16, 23, 6, 6),
   ("XIDX", 1990, 2200, 13, 23, 10, 10),
   ("XIST", 1990, 2200, 14, 23, 6, 11),
   ("XJSE", 1990, 2200, 17, 23, 5, 5),
   ("XKAR", 1990, 2200, 15, 23, 6, 6),
   ("XKLS", 1990, 2200, 16, 23, 6, 5),
   ("XKRX", 1986, 2021, 16, 23, 10, 8),
   ("XLIM", 1990, 2200, 18, 23, 5, 5),
   ("XLIS", 1990, 2200, 17, 23, 5, 5),
   ("XLON", 1990, 2200, 18, 23, 5, 5),
   ("XMAD", 1990, 2200, 16, 23, 5, 5),
   ("XMEX", 1990, 2200, 18, 23, 5, 5),
   ("XMIL", 1990, 2200, 17, 23, 5, 5),
   ("XMOS", 1990, 2200, 15, 23, 12, 4),
   ("XNYS", 1990, 2200, 15, 23, 4, 4),
   ("XNZE", 1990, 2200, 17, 23, 6, 5),
   ("XOSL", 1990, 2200, 17, 23, 6, 6),
   ("XPAR", 1990, 2200, 18, 23, 5, 5),
   ("XPHS", 1990, 2200, 17, 23, 5, 8),
   ("XPRA", 1990, 2200, 17, 23, 5, 5),
   ("XSES", 1986, 2020, 18, 23, 4, 5),
   ("XSGO", 1990, 2200, 17, 23, 5, 4),
   ("XSHG", 1999, 2025, 7, 23, 14, 20),
   ("XSTO", 1990, 2200, 17, 23, 5, 5),
   ("XSWX", 1990, 2200, 17, 23, 5, 5),
   ("XTAE", 1990, 2200, 12, 23, 6, 5),
   ("XTAI", 1990, 2200, 12, 23, 11, 11),
   ("XTKS", 2000, 2200, 18, 23, 7, 5),
   ("XTSE", 1990, 2200, 17, 23, 4, 4),
   ("XWAR", 1990, 2200, 17, 23, 5, 5),
   ("XWBO", 1990, 2200, 17, 23, 5, 5),
   ("us_futures", 2000, 2200, 19, 23, 4, 4),
   ("24/7", 1990, 2200, 28, 31, 1, 1),
   ("24/5", 1990, 2200, 20, 23, 3, 3)]

end TC.Spec
