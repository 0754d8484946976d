import Verif.Spec.Hours
import Verif.Spec.Defaults

/-!
# How many minutes a session has

By the timetable of an exchange, and what it means for its calendars to have sessions of that length.
-/

namespace TC.Spec

/-- A session of day `d` that closes at the closing time has `n` minutes, those of opening, closing and of both
ends of the break included. -/
def FullLength (T : Timetable) (d : Int) (n : Nat) : Prop :=
  ∃ o c, T.opens d o ∧ T.closes d c ∧
    (T.breaks = none → n * MINUTE = c - o + MINUTE) ∧
    ∀ p, T.breaks = some p → n * MINUTE = (p.1 - o + MINUTE) + (c - p.2 + MINUTE)

/-- A session of day `d` that closes early has `n` minutes. -/
def ShortLength (T : Timetable) (d : Int) (n : Nat) : Prop :=
  ∃ o t, T.opens d o ∧ T.early d t ∧ n * MINUTE = t - o + MINUTE

/-- In every calendar of exchange `x` in zone `z` that was built for a range from day `first` on, without the days
`bad`, `minutes_for_session` of every session has the length by the timetable, where the days `odd` are left out. -/
def KeepsLength (x : Exchange) (z : Tz) (first : Int) (bad odd : List Int) (T : Timetable) : Prop :=
  ∀ start stop b, first * DAY ≤ start → DAY ∣ start → (∀ d ∈ bad, d * DAY < start ∨ stop < d * DAY) →
    build (x.config z) start stop = .ok b → ∀ l ∈ b.cal.sessions,
      ∃ d ms, l = d * DAY ∧ b.cal.minutesForSession l = .ok ms ∧ (d ∉ odd →
        (l ∉ b.earlyCloses → FullLength T d ms.length) ∧ (l ∈ b.earlyCloses → ShortLength T d ms.length))

/-- Sessions of exchange `x` have the length by the timetable, which is one of `full`, or of `short` with an early
close. -/
structure SessionLengths (x : Exchange) (z : Tz) (first : Int) (bad odd : List Int) (T : Timetable)
    (full short : List Nat) : Prop where
  keeps : KeepsLength x z first bad odd T
  full : ∀ d n, FullLength T d n → n ∈ full
  short : ∀ d n, ShortLength T d n → n ∈ short

/-- The default calendars: the day from which on the clock of the city is regular in trading hours, days on which an
early close coincides with a closure, days with a change of the clock during the session, the lengths in minutes of
regular sessions, and of those that close early. -/
def lengthTable : List (String × Int × List Int × List Int × List Nat × List Nat) :=
  [("ASEX", dayOf 1979 4 3, [], [], [420, 440], []),
   ("BVMF", dayOf 1931 10 5, [], [], [420, 480], []),
   ("CMES", dayOf 1901 12 15, [], [dayOf 1942 2 9], [1440], [1140]),
   ("IEPA", dayOf 1901 12 15, [], [dayOf 1942 2 9], [1320], [1020]),
   ("XAMS", dayOf 1700 1 2, [], [], [510], [305]),
   ("XASX", dayOf 1700 1 2, [], [], [360], [250]),
   ("XBKK", dayOf 1700 1 2, [], [], [390], []),
   ("XBOG", dayOf 1901 12 15, [], [], [390], []),
   ("XBOM", dayOf 1700 1 2, [], [], [375], []),
   ("XBRU", dayOf 1918 11 13, [], [], [510], [305]),
   ("XBUD", dayOf 1700 1 2, [], [], [480], []),
   ("XBUE", dayOf 1901 12 15, [], [], [360], [120]),
   ("XCBF", dayOf 1901 12 15, [], [], [405], [225]),
   ("XCSE", dayOf 1700 1 2, [], [], [480], []),
   ("XDUB", dayOf 1700 1 2, [], [], [508], [268]),
   ("XFRA", dayOf 1700 1 2, [], [], [510], [210]),
   ("XETR", dayOf 1700 1 2, [], [], [510], [300]),
   ("XHEL", dayOf 1700 1 2, [], [], [510], []),
   ("XHKG", dayOf 1700 1 2, [], [], [302, 332], [120, 150, 180]),
   ("XICE", dayOf 1700 1 2, [], [], [360], []),
   ("XIDX", dayOf 1700 1 2, [], [], [410], []),
   ("XIST", dayOf 1700 1 2, [dayOf 2029 4 23], [], [480], [150]),
   ("XJSE", dayOf 1700 1 2, [], [], [480], []),
   ("XKAR", dayOf 1700 1 2, [], [], [358], []),
   ("XKLS", dayOf 1700 1 2, [dayOf 1984 2 1, dayOf 2029 2 13, dayOf 2031 1 23, dayOf 2049 2 1], [], [480], [210]),
   ("XKRX", dayOf 1700 1 2, [], [], [390], []),
   ("XLIM", dayOf 1901 12 15, [], [], [420], []),
   ("XLIS", dayOf 1700 1 2, [], [], [510], [305]),
   ("XLON", dayOf 1901 12 15, [], [], [510], [270]),
   ("XMAD", dayOf 1901 12 15, [], [], [510], [300]),
   ("XMEX", dayOf 1700 1 2, [], [], [390], []),
   ("XMIL", dayOf 1700 1 2, [], [], [510], []),
   ("XMOS", dayOf 1700 1 2, [], [], [525], []),
   ("XNYS", dayOf 1901 12 15, [dayOf 1945 12 24, dayOf 1956 12 24], [], [390], [210, 270]),
   ("XNZE", dayOf 1901 12 16, [], [], [405], [165]),
   ("XOSL", dayOf 1700 1 2, [], [], [440], [240]),
   ("XPAR", dayOf 1700 1 2, [], [], [510], [305]),
   ("XPHS", dayOf 1901 12 15, [], [], [360], []),
   ("XPRA", dayOf 1700 1 2, [], [], [440], []),
   ("XSES", dayOf 1700 1 2, [], [], [480], []),
   ("XSGO", dayOf 1700 1 2, [], [], [390, 450], [180, 240]),
   ("XSHG", dayOf 1700 1 2, [], [], [330], []),
   ("XSTO", dayOf 1700 1 2, [], [], [510], [240]),
   ("XSWX", dayOf 1700 1 2, [], [], [510], []),
   ("XTAE", dayOf 1700 1 2, [], [], [436], []),
   ("XTAI", dayOf 1700 1 2, [], [], [270], []),
   ("XTKS", dayOf 1700 1 2, [], [], [360], []),
   ("XTSE", dayOf 1901 12 15, [], [], [390], [210]),
   ("XWAR", dayOf 1700 1 2, [], [], [480], []),
   ("XWBO", dayOf 1700 1 2, [], [], [510], []),
   ("us_futures", dayOf 1901 12 15, [], [dayOf 1942 2 9], [1440], []),
   ("24/7", dayOf 1700 1 2, [], [], [1440], []),
   ("24/5", dayOf 1700 1 2, [], [], [1440], [])]

end TC.Spec
