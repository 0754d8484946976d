import Verif.Spec.Defaults

/-! # Specification vocabulary for closures and yearly numbers of trading days -/

namespace TC.Spec

/-- The longest closure has `g` days: of any `g + 1` consecutive days there is a trading day among, and there
are `g` consecutive days without one. -/
structure LongestClosure (trades : Int → Prop) (g : Nat) : Prop where
  atMost : ∀ d : Int, ∃ e : Int, d ≤ e ∧ e ≤ d + g ∧ trades e
  reached : ∃ d : Int, ∀ e : Int, d ≤ e → e < d + g → ¬ trades e

/-- Year `y` has `n` trading days. -/
def TradingDays (trades : Int → Prop) (y : Int) (n : Nat) : Prop :=
  ∃ l : List Int, l.Pairwise (· < ·) ∧ (∀ d, d ∈ l ↔ InYear d y ∧ trades d) ∧ l.length = n

/-- The least and the greatest number of trading days of a year from `y₀` to `y₁` are `lo` and `hi`. -/
structure YearlyRange (trades : Int → Prop) (y₀ y₁ : Int) (lo hi : Nat) : Prop where
  within : ∀ y, y₀ ≤ y → y ≤ y₁ → ∃ n, TradingDays trades y n ∧ lo ≤ n ∧ n ≤ hi
  least : ∃ y, y₀ ≤ y ∧ y ≤ y₁ ∧ TradingDays trades y lo
  greatest : ∃ y, y₀ ≤ y ∧ y ≤ y₁ ∧ TradingDays trades y hi

/-- The default calendars: the number of days of the longest closure, the years in question (from the default start
of the class to the end of the holiday window, with recorded holidays those recorded), and the least and
greatest number of sessions of one of these years. -/
def closureTable : List (String × Nat × Int × Int × Nat × Nat) :=
  [("ASEX", 37, 1990, 2200, 223, 255),
   ("BVMF", 4, 1990, 2200, 245, 251),
   ("CMES", 4, 1990, 2200, 257, 259),
   ("IEPA", 4, 1990, 2200, 257, 259),
   ("XAMS", 4, 1990, 2200, 251, 259),
   ("XASX", 5, 1990, 2200, 252, 255),
   ("XBKK", 5, 1990, 2200, 242, 249),
   ("XBOG", 5, 1990, 2200, 242, 246),
   ("XBOM", 5, 1997, 2020, 242, 257),
   ("XBRU", 4, 1990, 2200, 251, 259),
   ("XBUD", 6, 1990, 2200, 244, 254),
   ("XBUE", 12, 1990, 2200, 237, 253),
   ("XCBF", 4, 1990, 2200, 250, 255),
   ("XCSE", 5, 1990, 2200, 248, 253),
   ("XDUB", 5, 1990, 2200, 252, 256),
   ("XFRA", 5, 1990, 2200, 251, 257),
   ("XETR", 5, 1990, 2200, 251, 257),
   ("XHEL", 5, 1990, 2200, 250, 253),
   ("XHKG", 6, 1990, 2049, 243, 249),
   ("XICE", 5, 1990, 2200, 247, 252),
   ("XIDX", 11, 1990, 2200, 238, 257),
   ("XIST", 10, 1990, 2200, 246, 257),
   ("XJSE", 5, 1990, 2200, 248, 252),
   ("XKAR", 10, 1990, 2200, 241, 260),
   ("XKLS", 6, 1990, 2200, 243, 258),
   ("XKRX", 10, 1986, 2021, 241, 253),
   ("XLIM", 5, 1990, 2200, 248, 253),
   ("XLIS", 5, 1990, 2200, 246, 259),
   ("XLON", 4, 1990, 2200, 251, 254),
   ("XMAD", 5, 1990, 2200, 249, 259),
   ("XMEX", 4, 1990, 2200, 251, 257),
   ("XMIL", 5, 1990, 2200, 252, 257),
   ("XMOS", 11, 1990, 2200, 244, 253),
   ("XNYS", 11, 1990, 2200, 248, 254),
   ("XNZE", 16, 1990, 2200, 249, 253),
   ("XOSL", 5, 1990, 2200, 249, 254),
   ("XPAR", 4, 1990, 2200, 252, 259),
   ("XPHS", 11, 1990, 2200, 240, 261),
   ("XPRA", 5, 1990, 2200, 249, 253),
   ("XSES", 5, 1986, 2020, 248, 254),
   ("XSGO", 5, 1990, 2200, 245, 253),
   ("XSHG", 19, 1999, 2025, 237, 251),
   ("XSTO", 5, 1990, 2200, 249, 254),
   ("XSWX", 5, 1990, 2200, 249, 254),
   ("XTAE", 5, 1990, 2200, 244, 250),
   ("XTAI", 11, 1990, 2200, 241, 257),
   ("XTKS", 10, 2000, 2200, 241, 249),
   ("XTSE", 4, 1990, 2200, 250, 253),
   ("XWAR", 5, 1990, 2200, 247, 255),
   ("XWBO", 5, 1990, 2200, 246, 255),
   ("us_futures", 3, 2000, 2200, 257, 259),
   ("24/7", 0, 1990, 2200, 365, 366),
   ("24/5", 2, 1990, 2200, 260, 262)]

end TC.Spec
