import Verif.Spec.Hours

/-!
# Clocks

The UTC offsets of the exchanges' cities by the laws on standard and summer time, stated by weekday and date
(independently of the transition tables), and what it means for a calendar to keep its hours in UTC.
-/

namespace TC.Spec

/-- Day `a` is the first day with weekday `w` on or after month `m`, day `k` of year `y`. -/
def OnOrAfter (y : Int) (x : Int × Int × Int) (a : Int) : Prop :=
  ∃ c, DayNumber ⟨y, x.1, x.2.1⟩ c ∧ c ≤ a ∧ a < c + 7 ∧ IsWeekday a x.2.2

/-- Summer time: clocks go forward and back one hour, in the night before the first given weekday on or
after a given date (month, day, weekday). -/
structure ClockRule where
  forward : Int × Int × Int
  back : Int × Int × Int

/-- Day `d` of year `y` is in summer time; on the southern half of the earth that is at both ends of the
year. -/
def ClockRule.Summer (r : ClockRule) (y d : Int) : Prop :=
  ∃ a b, OnOrAfter y r.forward a ∧ OnOrAfter y r.back b ∧
    (a < b ∧ a ≤ d ∧ d < b ∨ b < a ∧ (d < b ∨ a ≤ d))

/-- Years with the same law: standard time is `std` ahead of UTC. -/
structure ClockYears where
  first : Int
  last : Option Int := none
  std : Int
  rule : Option ClockRule := none

/-- On day `d`, in one of these years, clocks are `k` ahead of UTC by day. -/
def ClockYears.Ahead (p : ClockYears) (d k : Int) : Prop :=
  ∃ y m n, DayNumber ⟨y, m, n⟩ d ∧ p.first ≤ y ∧ (∀ l, p.last = some l → y ≤ l) ∧
    ((p.rule = none ∧ k = p.std) ∨
      ∃ r, p.rule = some r ∧ (r.Summer y d ∧ k = p.std + hm 1 0 ∨ ¬ r.Summer y d ∧ k = p.std))

/-- On day `d` clocks are `k` ahead of UTC by day, by a list of laws. -/
def Ahead (ps : List ClockYears) (d k : Int) : Prop := ∃ p ∈ ps, p.Ahead d k

/-- The zone obeys the laws: from 8:00 to 21:00 each reading of the clock happens once, so much earlier in
UTC. -/
def ClockObeys (z : Tz) (ps : List ClockYears) : Prop :=
  ∀ d t k, hm 8 0 ≤ t → t ≤ hm 21 0 → Ahead ps d k → OnlyInstant z (d * DAY + t) (d * DAY + t - k)

/-- Session `s` is that of day `d` by the timetable in local time, where clocks are ahead of UTC as given.
The opening of a session that opens the evening before goes by the clock of that evening. -/
structure KeepsUtcDay (T : Timetable) (ahead : Int → Int → Prop) (start stop d : Int) (s : Session) :
    Prop where
  label : s.label = d * DAY
  opens : ∃ t, T.opens d t ∧ ∀ k, ahead (d + t / DAY) k → s.open = d * DAY + t - k
  early : ∀ t k, T.early d t → ahead d k → start ≤ d * DAY + t - k → d * DAY + t - k ≤ stop →
    s.close = d * DAY + t - k ∧ s.brk = none
  closes : ∀ k, ahead d k →
    (∀ t, T.early d t → ¬ (start ≤ d * DAY + t - k ∧ d * DAY + t - k ≤ stop)) →
      (∃ t, T.closes d t ∧ s.close = d * DAY + t - k) ∧
      ∀ p, T.breaks = some p → s.brk = some (d * DAY + p.1 - k, d * DAY + p.2 - k)
  noBreak : T.breaks = none → s.brk = none

/-- Every calendar of exchange `x` in zone `z` that was built for a range from day `first` on, without the
days `bad`, keeps the timetable in UTC. -/
def KeepsUtc (x : Exchange) (z : Tz) (first : Int) (bad : List Int) (T : Timetable)
    (ahead : Int → Int → Prop) : Prop :=
  ∀ start stop b, first * DAY ≤ start → DAY ∣ start → (∀ d ∈ bad, d * DAY < start ∨ stop < d * DAY) →
    build (x.config z) start stop = .ok b →
      ∃ ss, b.cal = Cal.ofSessions ss ∧ ∀ s ∈ ss, ∃ d, KeepsUtcDay T ahead start stop d s

namespace Clocks

/-- The last Sundays of March and October. -/
def lastSundays : ClockRule := { forward := (3, 25, 6), back := (10, 25, 6) }

/-- Europe, from 1996 on.  The tables of pytz end with 2037, after which it has standard time all year. -/
def europe (std : Int) (first : Int := 1996) : List ClockYears :=
  [{ first, last := some 2037, std, rule := some lastSundays }, { first := 2038, std }]

/-- The first Sunday of April to the last Sunday of October. -/
def aprilToOctober : ClockRule := { forward := (4, 1, 6), back := (10, 25, 6) }

/-- United States and Canada: from the last Sunday of April, from 1987 on the first Sunday of April, to the
last Sunday of October; from 2007 on, from the second Sunday of March to the first Sunday of November. -/
def northAmerica (std : Int) : List ClockYears :=
  [{ first := 1976, last := some 1986, std, rule := some { forward := (4, 24, 6), back := (10, 25, 6) } },
   { first := 1987, last := some 2006, std, rule := some aprilToOctober },
   { first := 2007, last := some 2037, std, rule := some { forward := (3, 8, 6), back := (11, 1, 6) } },
   { first := 2038, std }]

/-- The same time all year. -/
def fixed (first std : Int) : List ClockYears := [{ first, std }]

/-- Sydney: from the last Sunday of October to the last Sunday of March; since 2008 from the first Sunday of
October to the first Sunday of April.  In 2006 summer ended a week later because of the Commonwealth Games.
After 2037 pytz has summer time all year. -/
def sydney : List ClockYears :=
  let autumn : ClockRule := { forward := (10, 25, 6), back := (3, 25, 6) }
  [{ first := 2001, last := some 2005, std := hm 10 0, rule := some autumn },
   { first := 2006, last := some 2006, std := hm 10 0,
     rule := some { forward := (10, 25, 6), back := (4, 1, 6) } },
   { first := 2007, last := some 2007, std := hm 10 0, rule := some autumn },
   { first := 2008, last := some 2037, std := hm 10 0,
     rule := some { forward := (10, 1, 6), back := (4, 1, 6) } },
   { first := 2038, std := hm 11 0 }]

/-- New Zealand: from the first Sunday of October to the third Sunday of March; from 2007 on from the last
Sunday of September, from 2008 on to the first Sunday of April.  After 2037 pytz has summer time all year. -/
def newZealand : List ClockYears :=
  [{ first := 1990, last := some 2006, std := hm 12 0,
     rule := some { forward := (10, 1, 6), back := (3, 15, 6) } },
   { first := 2007, last := some 2007, std := hm 12 0,
     rule := some { forward := (9, 24, 6), back := (3, 15, 6) } },
   { first := 2008, last := some 2037, std := hm 12 0,
     rule := some { forward := (9, 24, 6), back := (4, 1, 6) } },
   { first := 2038, std := hm 13 0 }]

/-- Israel: from the Friday before the last Sunday of March to the last Sunday of October, from 2013 on. -/
def israel : List ClockYears :=
  [{ first := 2013, last := some 2037, std := hm 2 0,
     rule := some { forward := (3, 23, 4), back := (10, 25, 6) } },
   { first := 2038, std := hm 2 0 }]

/-- Chile: from the Sunday after the first Saturday of September to the one after the first Saturday of
April, from 2019 on; in 2022 a week later because of a referendum.  After 2037 pytz has summer time all
year. -/
def chile : List ClockYears :=
  let rule : ClockRule := { forward := (9, 2, 6), back := (4, 2, 6) }
  [{ first := 2019, last := some 2021, std := hm (-4) 0, rule := some rule },
   { first := 2022, last := some 2022, std := hm (-4) 0,
     rule := some { forward := (9, 9, 6), back := (4, 2, 6) } },
   { first := 2023, last := some 2037, std := hm (-4) 0, rule := some rule },
   { first := 2038, std := hm (-3) 0 }]

/-- Southern Brazil: from the third Sunday of October to the third Sunday of February, the fourth if the
third was in carnival (2012, 2015); in 2018 from the first Sunday of November.  None since 2019. -/
def brazil : List ClockYears :=
  let rule : ClockRule := { forward := (10, 15, 6), back := (2, 15, 6) }
  let carnival : ClockRule := { forward := (10, 15, 6), back := (2, 22, 6) }
  [{ first := 2008, last := some 2011, std := hm (-3) 0, rule := some rule },
   { first := 2012, last := some 2012, std := hm (-3) 0, rule := some carnival },
   { first := 2013, last := some 2014, std := hm (-3) 0, rule := some rule },
   { first := 2015, last := some 2015, std := hm (-3) 0, rule := some carnival },
   { first := 2016, last := some 2017, std := hm (-3) 0, rule := some rule },
   { first := 2018, last := some 2018, std := hm (-3) 0,
     rule := some { forward := (11, 1, 6), back := (2, 15, 6) } },
   { first := 2020, std := hm (-3) 0 }]

/-- Mexico: summer time from 1996 to 2022, from April to October, in 2001 from May to September. -/
def mexico : List ClockYears :=
  [{ first := 1970, last := some 1995, std := hm (-6) 0 },
   { first := 1996, last := some 2000, std := hm (-6) 0, rule := some aprilToOctober },
   { first := 2001, last := some 2001, std := hm (-6) 0,
     rule := some { forward := (5, 1, 6), back := (9, 24, 6) } },
   { first := 2002, last := some 2022, std := hm (-6) 0, rule := some aprilToOctober },
   { first := 2023, std := hm (-6) 0 }]

/-- Turkey: as in Europe until 2013 (but later in 2011, for examinations); three hours ahead from 2017 on. -/
def turkey : List ClockYears :=
  [{ first := 1996, last := some 2010, std := hm 2 0, rule := some lastSundays },
   { first := 2012, last := some 2013, std := hm 2 0, rule := some lastSundays },
   { first := 2017, std := hm 3 0 }]

/-- Moscow: as in Europe until 2010, four hours ahead in 2012 and 2013, three from 2015 on. -/
def moscow : List ClockYears :=
  [{ first := 1996, last := some 2010, std := hm 3 0, rule := some lastSundays },
   { first := 2012, last := some 2013, std := hm 4 0 },
   { first := 2015, std := hm 3 0 }]

/-- Pakistan: five hours ahead, with summer time in 2002, 2008 and 2009 only. -/
def pakistan : List ClockYears :=
  [{ first := 1972, last := some 2001, std := hm 5 0 }, { first := 2003, last := some 2007, std := hm 5 0 },
   { first := 2010, std := hm 5 0 }]

/-- Argentina: three hours behind, except in the summers before 1994 and from 2007 to 2009. -/
def argentina : List ClockYears :=
  [{ first := 1994, last := some 2006, std := hm (-3) 0 }, { first := 2010, std := hm (-3) 0 }]

end Clocks
end TC.Spec
