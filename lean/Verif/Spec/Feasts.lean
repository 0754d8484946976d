import Verif.Spec.BookList
import Verif.Spec.FeastDates

/-!
# Movable feasts

Holidays that follow the lunar calendars, given by the dates of the feasts, and how each exchange keeps
them; Orthodox Easter.
-/

namespace TC.Spec

/-- A feast with tabulated dates: the days off it brings, counted from the feast, by the weekday of the
feast; and the first and the last year in which they are given (no bound if absent). -/
structure Feast where
  dates : List (Int × Int × Int)
  off : WeekTable
  first : Option Int := none
  final : Option Int := none

/-- Day `d` is off for that feast. -/
def Feast.On (f : Feast) (d : Int) : Prop :=
  ∃ e ∈ f.dates, (∀ a, f.first = some a → a ≤ e.1) ∧ (∀ b, f.final = some b → e.1 ≤ b) ∧
    ∃ u, DayNumber ⟨e.1, e.2.1, e.2.2⟩ u ∧ ByTable f.off u d

/-- However the calendar of exchange `x` was constructed, its sessions from 1970 to 2200 are exactly the
Mondays to Fridays that are neither single closures nor off for a feast nor holidays of the list. -/
def FollowsFeasts (x : Exchange) (holiday : Int → Int → Prop) (feasts : List Feast)
    (closures : List (Int × Int × Int)) : Prop :=
  ∀ z start stop b, build (x.config z) start stop = .ok b → DAY ∣ start →
    ∀ d, start ≤ d * DAY → d * DAY ≤ stop → 0 ≤ d → d ≤ 84370 →
      (d * DAY ∈ b.cal.sessions ↔
        Weekday d ∧ ¬ OnDates closures d ∧ (∀ f ∈ feasts, ¬ f.On d) ∧ ∀ y, ¬ holiday y d)

/-- Day `d` has the early close `t` by the lists: times of day with the days on which they apply, by a
book or for a feast, except the given days. -/
def EarlyForFeasts (early : List (Int × Book)) (feasts : List (Int × Feast))
    (but : List (Int × Int × Int)) (d t : Int) : Prop :=
  (∃ e ∈ early, e.1 = t ∧ ∃ y, e.2.Holiday y d) ∨
    ((∃ e ∈ feasts, e.1 = t ∧ e.2.On d) ∧ ¬ OnDates but d)

/-- The early closes of exchange `x`, in any year, are those listed. -/
def ClosesEarlyForFeasts (x : Exchange) (early : List (Int × Book)) (feasts : List (Int × Feast))
    (but : List (Int × Int × Int)) : Prop :=
  ∀ d t, ClosesEarly x d t ↔ EarlyForFeasts early feasts but d t

/-- March 21 of the Julian calendar: year after year 365 days later, 366 if a February 29 comes between,
which the Julian calendar has in every year divisible by four.  In 1900 it was April 3. -/
def JulianMarch21 (y u : Int) : Prop :=
  ∃ u0, DayNumber ⟨1900, 4, 3⟩ u0 ∧ u = u0 + 365 * (y - 1900) + (y / 4 - 1900 / 4)

/-- `d` is Orthodox Easter of year `y`: the first Sunday after the Paschal full moon of the Julian
calendar, which by the golden number of the year is up to 29 days after March 21. -/
def OrthodoxEaster (y d : Int) : Prop :=
  ∃ u, JulianMarch21 y u ∧ IsWeekday d 6 ∧
    u + (19 * (y % 19) + 15) % 30 < d ∧ d ≤ u + (19 * (y % 19) + 15) % 30 + 7

namespace Books
open Feasts

/-! Days off by weekday of the feast. -/

/-- The day itself, whatever the weekday; `n` days later. -/
def after (n : Int) : WeekTable := List.replicate 7 [n]

/-! ## Hong Kong -/

/-- `exchange_calendar_xhkg.py` lines 346-408.  Chinese new year is kept for three days; until 2012 a new
year on a Saturday gave the eve off, from 2013 on a Sunday among the three days gives a fourth.  The day
after the mid-autumn festival is off, but October 2 if that is October 1 (in any year, though October 1
has been a holiday only since 1997). -/
def hongKongFeasts : List Feast :=
  [{ dates := lunarNewYear, off := after 0 }, { dates := lunarNewYear, off := after 1 },
   { dates := lunarNewYear, off := after 2 },
   { dates := lunarNewYear, off := [[], [], [], [], [], [-1], []], final := some 2012 },
   { dates := lunarNewYear, off := [[], [], [], [], [3], [3], [3]], first := some 2013 },
   { dates := qingming, off := sundayToMonday }, { dates := buddhasBirthday, off := sundayToMonday },
   { dates := dragonBoat, off := sundayToMonday },
   { dates := midAutumn.filter fun e => e.2 ≠ (9, 30), off := after 1 },
   { dates := midAutumn.filter fun e => e.2 = (9, 30), off := after 2 },
   { dates := doubleNinth, off := sundayToMonday }]

/-- The single closures of Hong Kong; in 2021 and 2026 Qingming, a Sunday, would be made up on Easter
Monday and is made up on the day after. -/
def hongKongDays : List (Int × Int × Int) := hongKongClosures ++ [(2021, 4, 6), (2026, 4, 7)]

/-- Early closes (lines 410-473): Christmas eve and New Year's eve, except 1999, at 12:30 until 2010, at
12:00 from 2011 on. -/
def hongKongEarly : List (Int × Book) :=
  [(hm 12 30, [until' 2010 (.dateIf 12 24 weekdays),
      { day := .dateIf 12 31 weekdays, final := some 2010, but := [1999] }]),
   (hm 12 0, [since 2011 (.dateIf 12 24 weekdays), since 2011 (.dateIf 12 31 weekdays)])]

/-- The eve of Chinese new year, if on a weekday, from 2013 on. -/
def hongKongEves : List (Int × Feast) :=
  [(hm 12 0, { dates := lunarNewYear, off := [[], [-1], [-1], [-1], [-1], [-1], []],
               first := some 2013 })]

/-! ## Taipei -/

/-- `exchange_calendar_xtai.py` lines 48-193.  Chinese new year moves from a weekend to Monday; the two
trading days before and the two days after, moved out of the weekend, are off too.  Qingming, the dragon
boat and the mid-autumn festival have been made up since 2014 on the nearest weekday, and since 2007 a
Tuesday or Thursday brings a long weekend. -/
def taipeiFeasts : List Feast :=
  [{ dates := lunarNewYear,
     off := [[0, -3, -4, 1, 2], [0, -1, -4, 1, 2], [0, -1, -2, 1, 2], [0, -1, -2, 1, 4],
             [0, -1, -2, 3, 4], [2, -1, -2, 3, 4], [1, -2, -3, 2, 3]] }] ++
  [qingming, dragonBoat, midAutumn].flatMap fun dates =>
    [{ dates, off := after 0, final := some 2006 }, { dates, off := longWeekend, first := some 2007 },
     { dates, off := [[], [], [], [], [], [-1], [1]], first := some 2014 }]

/-- The single closures of Taipei. -/
def taipeiDays : List (Int × Int × Int) := taipeiClosures ++ taipeiTyphoons ++ newYearExtrasTaiwan

/-! ## Kuala Lumpur -/

/-- `xkls_holidays.py` lines 440-508.  A Sunday is made up on Monday; Chinese new year and Eid al-Fitr
have a second day, after the first one as kept. -/
def kualaLumpurFeasts : List Feast :=
  [{ dates := lunarNewYear, off := [[0, 1], [0, 1], [0, 1], [0, 1], [0, 1], [0, 2], [1, 2]] },
   { dates := eidAlFitrMalaysia, off := [[0, 1], [0, 1], [0, 1], [0, 1], [0, 1], [0, 2], [1, 2]] },
   { dates := nuzulMalaysia, off := sundayToMonday }, { dates := eidAlAdhaMalaysia, off := sundayToMonday },
   { dates := muharramMalaysia, off := sundayToMonday }, { dates := mawlidMalaysia, off := sundayToMonday },
   { dates := deepavaliMalaysia, off := after 0 }, { dates := thaipusamMalaysia, off := after 0 },
   { dates := wesakMalaysia, off := after 0 }]

/-- The eves of Chinese new year and Eid al-Fitr as kept, if on a weekday (lines 511-521). -/
def kualaLumpurEves : List (Int × Feast) :=
  [(hm 12 30, { dates := lunarNewYear, off := [[], [-1], [-1], [-1], [-1], [-1], []] }),
   (hm 12 30, { dates := eidAlFitrMalaysia, off := [[], [-1], [-1], [-1], [-1], [-1], []] })]

/-- Eves that were closed altogether (`exchange_calendar_xkls.py` lines 128-137). -/
def kualaLumpurFullEves : List (Int × Int × Int) :=
  [(1997, 2, 7), (1998, 1, 28), (2002, 2, 11), (2003, 1, 31), (2004, 1, 21), (2003, 11, 24)]

/-! ## Istanbul -/

/-- `exchange_calendar_xist.py` lines 52-71: three days of Eid al-Fitr, four of Eid al-Adha. -/
def istanbulFeasts : List Feast :=
  [{ dates := eidAlFitr, off := List.replicate 7 [0, 1, 2] },
   { dates := eidAlAdha, off := List.replicate 7 [0, 1, 2, 3] }]

/-- October 28, the eve of republic day. -/
def istanbulEarly : List (Int × Book) := [(hm 12 30, [every (.dateIf 10 28 weekdays)])]

/-- The eves of both feasts, if on a weekday. -/
def istanbulEves : List (Int × Feast) :=
  [(hm 12 30, { dates := eidAlFitr, off := [[], [-1], [-1], [-1], [-1], [-1], []] }),
   (hm 12 30, { dates := eidAlAdha, off := [[], [-1], [-1], [-1], [-1], [-1], []] })]

/-- Eves that were closed altogether (lines 193-198). -/
def istanbulFullEves : List (Int × Int × Int) := [(1994, 5, 19), (2003, 11, 24)]

/-! ## Bangkok, Jakarta, Karachi, Manila -/

/-- `xbkk_holidays.py` lines 186-322. -/
def bangkokFeasts : List Feast :=
  [makhaBucha, vesakThailand, asanhaBucha].map fun dates => { dates, off := after 0 }

/-- The single closures of Bangkok (`xbkk_holidays.py` lines 146-183). -/
def bangkokDays : List (Int × Int × Int) :=
  newYearBridgesThailand ++ asanhaBuchaBridgesThailand ++ queensBirthdayBridgesThailand ++
    coronationBridgesThailand ++ vesakBridgesThailand ++ bangkokClosures

/-- `exchange_calendar_xidx.py` lines 112-116. -/
def jakartaFeasts : List Feast := [{ dates := lunarNewYear, off := after 0, first := some 2002 }]

/-- The other holidays of Jakarta are given day by day (lines 118-430). -/
def jakartaDays : List (Int × Int × Int) :=
  commonLeaveIndonesia ++ islamicNewYearIndonesia ++ eidAlFitrIndonesia ++ eidAlAdhaIndonesia ++
    israMirajIndonesia ++ mawlidIndonesia ++ vesakIndonesia ++ nyepiIndonesia ++ suspensionsJakarta ++
    electionsIndonesia

/-- Those of Karachi too (`exchange_calendar_xkar.py` lines 107-395). -/
def karachiDays : List (Int × Int × Int) :=
  jumaTulWidaPakistan ++ eidAlFitrPakistan ++ eidAlAdhaPakistan ++ ashuraPakistan ++ mawlidPakistan ++
    newYearPakistan ++ karachiClosures

/-- `exchange_calendar_xphs.py` line 62. -/
def manilaFeasts : List Feast := [{ dates := lunarNewYear, off := after 0, first := some 2012 }]

/-- The single closures of Manila (`exchange_calendar_xphs.py` lines 138-416). -/
def manilaDays : List (Int × Int × Int) :=
  manilaUntil2010 ++ eidAlFitrPhilippines ++ eidAlAdhaPhilippines ++ manilaClosures

/-! ## Athens -/

/-- The holidays of Athens: the list, and from 1980 to 2020 those of Orthodox Easter: Ash Monday, Good
Friday, Easter Monday and Whit Monday (`exchange_calendar_asex.py` lines 41-71). -/
def AthensHoliday (y d : Int) : Prop :=
  athens.Holiday y d ∨ 1980 ≤ y ∧ y ≤ 2020 ∧ (OrthodoxEaster y (d + 48) ∨ OrthodoxEaster y (d + 2) ∨
    OrthodoxEaster y (d - 1) ∨ OrthodoxEaster y (d - 50))

/-- The weekdays of the closure of the Greek debt crisis, 2015-06-29 to 2015-07-31, and single
closures. -/
def athensClosures : List (Int × Int × Int) :=
  [(2015, 6, 29), (2015, 6, 30), (2015, 7, 1), (2015, 7, 2), (2015, 7, 3), (2015, 7, 6), (2015, 7, 7),
   (2015, 7, 8), (2015, 7, 9), (2015, 7, 10), (2015, 7, 13), (2015, 7, 14), (2015, 7, 15),
   (2015, 7, 16), (2015, 7, 17), (2015, 7, 20), (2015, 7, 21), (2015, 7, 22), (2015, 7, 23),
   (2015, 7, 24), (2015, 7, 27), (2015, 7, 28), (2015, 7, 29), (2015, 7, 30), (2015, 7, 31),
   (2002, 5, 7), (2004, 8, 13), (2008, 3, 4), (2008, 3, 5), (2013, 5, 7), (2014, 12, 31), (2016, 5, 3)]

end Books

end TC.Spec
